import Verif.Proof.RepliesAny
/-!
# C12, C13 — order and numbering of replies; C15 — reuse of message numbers
-/
namespace Verif.Props
open Verif.Model Verif.Spec Verif.Proof

/-- What the peer can observe of the messages handed to the sending thread. -/
def sentAnswers (s : ReplyChan) : List Answer := s.queue.map fun d =>
  { type := d.type, msgno := d.msgno, ansno := if d.type = .ans then d.ansno else 0, more := d.fixedMore
    octets := d.message }

/-- Every execution on one channel: frames of messages arrive (reader thread), the application replies from
any thread (a call blocks while another one is inside), and the thread inside a reply function takes its
steps, all interleaved in any way. `b` is the ledger of what arrived and what was replied. `allowed` is
what the application may do. -/
inductive Answering (allowed : List Entry → Int → Reply → Prop) (hdr : List Byte) (ch : Int) :
    Book → ReplyChan → Prop
  | init : Answering allowed hdr ch .init (.init ch hdr)
  | frame {b s more m s'} : Answering allowed hdr ch b s → 0 ≤ m → s.frame more m = some s' →
      Answering allowed hdr ch (b.frame more m) s'
  | reply {b s m r v s'} : Answering allowed hdr ch b s → allowed b.ledger m r →
      s.reply m r.type r.more r.body = some (v, s') → Answering allowed hdr ch (b.reply m r) s'
  | send {b s s'} : Answering allowed hdr ch b s → s.send = some s' → Answering allowed hdr ch b s'
  | fetch {b s s'} : Answering allowed hdr ch b s → s.fetch = some s' → Answering allowed hdr ch b s'

/-- **C12 (full statement, violated)**: whatever the order of arrivals and replies, what has been queued
for sending is a prefix of the replies to the received messages in order of arrival, each with its full
content; and all of it once no reply call is running. -/
def C12_statement : Prop := ∀ hdr ch b s, Answering Allowed hdr ch b s →
  sentAnswers s <+: expected hdr b.ledger ∧ (s.phase = .idle → sentAnswers s = expected hdr b.ledger)

theorem aux_inv {hdr ch b s} (h : Answering AllowedInTurn hdr ch b s) : Inv hdr b s := by
  induction h with
  | init => exact inv_init hdr ch
  | frame _ hm h ih => exact inv_frame ih hm h
  | reply _ ha h ih => exact (inv_reply ih ha h).2
  | send _ h ih => exact inv_send ih h
  | fetch _ h ih => exact inv_fetch ih h

theorem aux_any {hdr ch b s} (h : Answering Allowed hdr ch b s) : InvAny hdr b s := by
  induction h with
  | init => exact any_init hdr ch
  | frame _ hm h ih => exact any_frame ih hm h
  | reply _ ha h ih => exact (any_reply ih ha h).2
  | send _ h ih => exact any_send ih h
  | fetch _ h ih => exact any_fetch ih h

/-- **C12 (partial)**: replies are queued in the order of arrival, each once and with its full content,
and the connection is not shut down, for every interleaving, provided that the second and later parts
of a reply sent in several parts are given only when its turn has come. Missing: parts given earlier,
see `C12_part_lost`. -/
theorem C12_order_partial {hdr ch b s} (h : Answering AllowedInTurn hdr ch b s) :
    sentAnswers s <+: expected hdr b.ledger ∧ (s.phase = .idle → sentAnswers s = expected hdr b.ledger) ∧
    s.broken = false := inv_queue (aux_inv h)

/-- **C12**: no legal reply call is refused (it blocks only while another call runs). -/
theorem C12_call_accepted {hdr ch b s m r} (h : Answering Allowed hdr ch b s) (ha : Allowed b.ledger m r)
    (hi : s.phase = .idle) : ∃ s', s.reply m r.type r.more r.body = some (true, s') := by
  cases hr : s.reply m r.type r.more r.body with
  | none =>
    unfold ReplyChan.reply at hr
    rw [if_neg (by simp [hi])] at hr
    simp only at hr
    repeat' split at hr
    all_goals cases hr
  | some p =>
    obtain ⟨v, s'⟩ := p
    have := (any_reply (aux_any h) ha hr).1
    subst this
    exact ⟨s', rfl⟩

theorem aux_finish {hdr ch b} (n : Nat) : ∀ {s}, Answering AllowedInTurn hdr ch b s →
    2 * ((expected hdr b.ledger).length - s.queue.length) + (if s.phase = .fetching then 1 else 0) ≤ n →
    Answering AllowedInTurn hdr ch b (s.finish n) ∧ (s.finish n).phase = .idle := by
  induction n with
  | zero =>
    intro s h hn
    cases hp : s.phase with
    | idle => exact ⟨h, hp⟩
    | fetching => rw [hp] at hn; simp at hn
    | sending m d => have := inv_sending (aux_inv h) hp; omega
  | succ n ih =>
    intro s h hn
    cases hp : s.phase with
    | idle =>
      have : s.finish (n + 1) = s := by simp only [ReplyChan.finish, hp]
      rw [this]
      exact ⟨h, hp⟩
    | fetching =>
      simp only [ReplyChan.finish, hp]
      rw [hp] at hn
      cases hf : s.fetch with
      | none =>
        unfold ReplyChan.fetch at hf
        simp only [hp] at hf
        repeat' split at hf
        all_goals cases hf
      | some s' =>
        have hq : s'.queue = s.queue ∧ s'.phase ≠ .fetching := by
          unfold ReplyChan.fetch at hf
          simp only [hp] at hf
          repeat' split at hf
          all_goals (simp only [Option.some.injEq] at hf; subst hf; simp)
        apply ih (.fetch h hf)
        rw [hq.1, if_neg hq.2]
        simp only [if_true] at hn
        omega
    | sending m d =>
      have hlt := inv_sending (aux_inv h) hp
      simp only [ReplyChan.finish, hp]
      rw [hp] at hn
      cases hf : s.send with
      | none =>
        unfold ReplyChan.send at hf
        simp only [hp] at hf
        cases hf
      | some s' =>
        have hq : s'.queue.length = s.queue.length + 1 := by
          unfold ReplyChan.send at hf
          simp only [hp, Option.some.injEq] at hf
          subst hf
          cases d.type <;> cases d.fixedMore <;> simp
        apply ih (.send h hf)
        have : (if s'.phase = .fetching then 1 else 0) ≤ 1 := by split <;> omega
        simp only [reduceCtorEq, if_false] at hn
        omega

/-- **C12 (partial, progress)**: a running reply call always ends; then everything due has been queued. -/
theorem C12_all_sent_partial {hdr ch b s} (h : Answering AllowedInTurn hdr ch b s) :
    ∃ n, (s.finish n).phase = .idle ∧ sentAnswers (s.finish n) = expected hdr b.ledger := by
  obtain ⟨h1, h2⟩ := aux_finish _ h (Nat.le_refl _)
  exact ⟨_, h2, (C12_order_partial h1).2.1 h2⟩

/-! ### The violation -/

def late1 : ReplyChan := ((ReplyChan.init 1 []).frame false 1).getD (.init 1 [])
def late2 : ReplyChan := (late1.frame false 2).getD late1
/-- the first part of the reply to message 2 -/
def late3 : ReplyChan := ((late2.reply 2 .rpy true (lit "a")).map (·.2)).getD late2
/-- the rest of the reply to message 2 -/
def late4 : ReplyChan := ((late3.reply 2 .rpy false (lit "b")).map (·.2)).getD late3
/-- the reply to message 1 -/
def late5 : ReplyChan := ((late4.reply 1 .rpy false (lit "x")).map (·.2)).getD late4
def late6 : ReplyChan := late5.send.getD late5
def late7 : ReplyChan := late6.fetch.getD late6
def late8 : ReplyChan := late7.send.getD late7
def late9 : ReplyChan := late8.fetch.getD late8

def lateBook : Book :=
  (((((Book.init.frame false 1).frame false 2).reply 2 ⟨.rpy, true, lit "a"⟩).reply 2 ⟨.rpy, false, lit "b"⟩).reply 1
    ⟨.rpy, false, lit "x"⟩)

theorem aux_late : Answering Allowed [] 1 lateBook late9 := by
  refine .fetch (s := late8) (.send (s := late7) (.fetch (s := late6) (.send (s := late5) ?_ rfl) rfl) rfl) rfl
  refine .reply (s := late4) (v := true) (m := 1) (r := ⟨.rpy, false, lit "x"⟩) ?_
    ⟨[], ⟨1, []⟩, [⟨2, [⟨.rpy, true, lit "a"⟩, ⟨.rpy, false, lit "b"⟩]⟩], rfl, rfl, by simp, rfl,
      by simp [Follows], by simp⟩ rfl
  refine .reply (s := late3) (v := true) (m := 2) (r := ⟨.rpy, false, lit "b"⟩) ?_
    ⟨[⟨1, []⟩], ⟨2, [⟨.rpy, true, lit "a"⟩]⟩, [], rfl, rfl, by simp, rfl, by simp [Follows], by simp⟩ rfl
  refine .reply (s := late2) (v := true) (m := 2) (r := ⟨.rpy, true, lit "a"⟩) ?_
    ⟨[⟨1, []⟩], ⟨2, []⟩, [], rfl, rfl, by simp, rfl, by simp [Follows], by simp⟩ rfl
  exact .frame (s := late1) (.frame .init (by decide) rfl) (by decide) rfl

/-- **C12 (violation)**: a reply sent in two parts while an earlier message is unanswered loses its first
part. -/
theorem C12_part_lost : Answering Allowed [] 1 lateBook late9 ∧ late9.phase = .idle ∧
    (sentAnswers late9).map (fun a => (a.msgno, a.more, a.octets)) =
      [(1, false, lit "x"), (2, false, lit "b")] ∧
    (expected [] lateBook.ledger).map (fun a => (a.msgno, a.more, a.octets)) =
      [(1, false, lit "x"), (2, true, lit "a"), (2, false, lit "b")] :=
  ⟨aux_late, by decide +kernel, by decide +kernel, by decide +kernel⟩

theorem C12_statement_false : ¬ C12_statement := by
  intro h
  obtain ⟨h1, h2, h3, h4⟩ := C12_part_lost
  have := (h [] 1 lateBook late9 h1).2 h2
  rw [this, h4] at h3
  exact absurd h3 (by decide)

/-! ### C13 -/

/-- **C13**: whatever is answered and in whatever order, the ANS replies leave numbered 0, 1, 2, ... for each
message, not mixed with other replies, up to their NUL (`ansNumbering`); and they are the replies
the application gave, in order: what leaves is a prefix of the answers of a ledger `G` (all of them when no
call is running) that has the received messages in order and, for every message answered by ANS and NUL,
exactly the replies given (with the MIME headers before the body). -/
theorem C13_answers {hdr ch b s} (h : Answering Allowed hdr ch b s) :
    ansNumbering 0 none (sentAnswers s) ∧
    ∃ G : List Entry, sentAnswers s <+: expected [] G ∧ (s.phase = .idle → sentAnswers s = expected [] G) ∧
      G.length = b.ledger.length ∧
      ∀ (i : Nat) (g e : Entry), G[i]? = some g → b.ledger[i]? = some e → g.msgno = e.msgno ∧
        ((∀ x ∈ e.replies, x.type = .ans ∨ x.type = .nul) →
          g.replies = e.replies.map (fun r => { r with body := hdr ++ r.body })) := by
  obtain ⟨-, g, h1, h2, h3⟩ := aux_any h
  refine ⟨inv_ansNumbering (s := noMime s) h1, g.ledger, (inv_queue h1).1, (inv_queue h1).2.1, ?_, ?_⟩
  · have : ∀ {G L}, Rel hdr G L → G.length = L.length := by
      intro G L h
      induction h with
      | nil => rfl
      | cons _ _ _ _ _ ih => simp [ih]
    exact this h2
  · have : ∀ {G L}, Rel hdr G L → ∀ (i : Nat) (g e : Entry), G[i]? = some g → L[i]? = some e → g.msgno = e.msgno ∧
        ((∀ x ∈ e.replies, x.type = .ans ∨ x.type = .nul) →
          g.replies = e.replies.map (fun r => { r with body := hdr ++ r.body })) := by
      intro G L h
      induction h with
      | nil => intro i g e h; simp at h
      | cons a b c d _ ih =>
        intro i g e hg he
        cases i with
        | zero =>
          simp only [List.getElem?_cons_zero, Option.some.injEq] at hg he
          subst hg he
          exact ⟨a, d⟩
        | succ i =>
          simp only [List.getElem?_cons_succ] at hg he
          exact ih i g e hg he
    exact this h2

/-- The reply functions never close the connection under legal use. -/
theorem C13_not_broken {hdr ch b s} (h : Answering Allowed hdr ch b s) : s.broken = false := by
  obtain ⟨-, g, h1, h2, h3⟩ := aux_any h
  exact (inv_queue h1).2.2

-- two messages; the second is answered first, with two answers and a NUL; all of it is held back until the
-- first is answered, then numbered 0 and 1
def held : ReplyChan := (do
  let s ← (ReplyChan.init 1 (lit "\r\n")).frame true 1
  let s ← s.frame false 1
  let s ← s.frame false 2
  let (_, s) ← s.reply 2 .ans false (lit "p")
  let (_, s) ← s.reply 2 .ans false (lit "q")
  let (_, s) ← s.reply 2 .nul false []
  let (_, s) ← s.reply 1 .rpy false (lit "x")
  pure (s.finish 20)).getD (.init 1 [])

example : held.phase = .idle ∧ (sentAnswers held).map (fun a => (a.type, a.msgno, a.ansno, a.octets)) =
    [(.rpy, 1, 0, lit "\r\nx"), (.ans, 2, 0, lit "\r\np"), (.ans, 2, 1, lit "\r\nq"), (.nul, 2, 0, lit "\r\n")] := by
  decide +kernel

example : ¬ ansNumbering 0 none [⟨.ans, 2, 1, false, []⟩] := by simp [ansNumbering]
example : ¬ ansNumbering 0 none [⟨.ans, 2, 0, false, []⟩, ⟨.ans, 3, 1, false, []⟩] := by simp [ansNumbering]

/-! ### C15 -/

/-- What happens to the list of messages waiting for an answer. -/
inductive MsgEvent
  /-- a frame of a message arrives -/
  | frame (more : Bool) (m : Int)
  /-- the complete answer to message `m` is queued -/
  | answered (m : Int)

/-- The library; `none` once a frame is rejected. -/
def incoming (s : Incoming) : List MsgEvent → Option Incoming
  | [] => some s
  | .frame more m :: es =>
    match s.check more m with
    | none => none
    | some s => incoming s es
  | .answered m :: es => incoming (s.removeFirst m).2 es

/-- The messages received and not answered, and the one of which more frames are to come. -/
structure Received where
  unanswered : List Int
  current : Option Int

/-- What the frames mean: a frame starts a message unless one is being received. -/
def received (w : Received) : List MsgEvent → Received
  | [] => w
  | .frame more m :: es =>
    received
      { unanswered := if w.current = none then w.unanswered ++ [m] else w.unanswered
        current := if more then some m else none } es
  | .answered m :: es => received { w with unanswered := w.unanswered.erase m } es

/-- Answers are given to the message that has waited longest. -/
def answersInOrder (w : Received) : List MsgEvent → Prop
  | [] => True
  | .frame more m :: es => 0 ≤ m ∧ answersInOrder (received w [.frame more m]) es
  | .answered m :: es => w.unanswered.head? = some m ∧ answersInOrder (received w [.answered m]) es

/-- A frame is legal: it goes on with the message being received, or starts one with a number that
is not waiting for an answer. -/
def legal (w : Received) (m : Int) : Prop :=
  match w.current with
  | some c => m = c
  | none => m ∉ w.unanswered

def agrees (s : Incoming) (w : Received) : Prop :=
  s.pending = w.unanswered ∧ (∀ c, w.current = some c → s.fragment = c ∧ 0 ≤ c) ∧ (w.current = none → s.fragment = -1)

theorem aux_check {s w} (h : agrees s w) (more : Bool) (m : Int) (hm : 0 ≤ m) :
    ((s.check more m).isSome ↔ legal w m) ∧
    ∀ s', s.check more m = some s' → agrees s' (received w [.frame more m]) := by
  obtain ⟨h1, h2, h3⟩ := h
  unfold Incoming.check legal
  cases hc : w.current with
  | none =>
    have hf := h3 hc
    have hnf : ¬ (s.fragment ≠ -1 ∧ s.fragment ≠ m) := by omega
    have hne : ¬ m = -1 := by omega
    rw [if_neg hnf]
    cases more <;> by_cases hp : m ∈ s.pending <;>
      simp [hf, hp, ← h1, agrees, received, hc, hm]
  | some c =>
    obtain ⟨hf, hc0⟩ := h2 c hc
    have hne : s.fragment ≠ -1 := by omega
    have hnc : ¬ c = -1 := by omega
    by_cases hmc : m = c
    · subst hmc
      have hnf : ¬ (s.fragment ≠ -1 ∧ s.fragment ≠ m) := by omega
      rw [if_neg hnf]
      cases more <;> simp [hf, h1, agrees, received, hc, hm, hnc]
    · have hnf : s.fragment ≠ -1 ∧ s.fragment ≠ m := by omega
      rw [if_pos hnf]
      simp [hmc]

theorem aux_incoming : ∀ (es : List MsgEvent) (s : Incoming) (w : Received), agrees s w → w.unanswered.Nodup →
    answersInOrder w es → ∀ s', incoming s es = some s' →
    agrees s' (received w es) ∧ (received w es).unanswered.Nodup := by
  intro es
  induction es with
  | nil =>
    intro s w h hn _ s' hs
    simp only [incoming, Option.some.injEq] at hs
    subst hs
    exact ⟨h, hn⟩
  | cons e es ih =>
    intro s w h hn hes s' hs
    cases e with
    | frame more m =>
      obtain ⟨hm, hes⟩ := hes
      have hck := aux_check h more m hm
      simp only [incoming] at hs
      cases hc : s.check more m with
      | none => rw [hc] at hs; cases hs
      | some s1 =>
        rw [hc] at hs
        have hag := hck.2 s1 hc
        have hleg := hck.1.1 (by rw [hc]; rfl)
        refine ih s1 _ hag ?_ hes s' hs
        simp only [received]
        unfold legal at hleg
        cases hcur : w.current with
        | some c => simpa using hn
        | none =>
          rw [hcur] at hleg
          simp only [if_true]
          rw [List.nodup_append]
          refine ⟨hn, by simp, ?_⟩
          intro a ha b hb e
          simp at hb
          subst e hb
          exact hleg ha
    | answered m =>
      obtain ⟨hm, hes⟩ := hes
      simp only [incoming] at hs
      obtain ⟨h1, h2, h3⟩ := h
      cases hu : w.unanswered with
      | nil => rw [hu] at hm; cases hm
      | cons a l =>
        rw [hu] at hm
        simp only [List.head?_cons, Option.some.injEq] at hm
        subst hm
        have hrem : (s.removeFirst a).2 = { s with pending := l } := by
          unfold Incoming.removeFirst
          rw [h1, hu]; simp
        rw [hrem] at hs
        refine ih _ (received w [.answered a]) ⟨?_, ?_, ?_⟩ ?_ hes s' hs
        · simp [received, hu]
        · intro c hc; exact h2 c hc
        · intro hc; exact h3 hc
        · simp only [received]; exact hn.erase _

/-- **C15**: after any history of accepted frames and answers (given in order, see C12), the numbers of the
messages received and not answered are all different, and the next frame is accepted exactly if it is
legal: a frame that starts a message with a number still unanswered, or that comes between the frames of
another message, is rejected. -/
theorem C15_msgno (es : List MsgEvent) (s : Incoming) (h : incoming .init es = some s)
    (ho : answersInOrder ⟨[], none⟩ es) :
    (received ⟨[], none⟩ es).unanswered.Nodup ∧
    ∀ more m, 0 ≤ m → ((s.check more m).isSome ↔ legal (received ⟨[], none⟩ es) m) := by
  have := aux_incoming es .init ⟨[], none⟩ ⟨rfl, by simp, fun _ => rfl⟩ (by simp) ho s h
  exact ⟨this.2, fun more m hm => (aux_check this.1 more m hm).1⟩

-- a message in two frames, another one, the first answered: its number may be used again
example : (incoming .init [.frame true 0, .frame false 0, .frame false 1, .answered 0]).isSome ∧
    answersInOrder ⟨[], none⟩ [.frame true 0, .frame false 0, .frame false 1, .answered 0] ∧
    incoming .init [.frame false 0, .frame false 0] = none ∧
    incoming .init [.frame true 0, .frame false 1] = none ∧
    (incoming .init [.frame true 0, .frame false 0, .frame false 1, .answered 0, .frame false 0]).isSome := by
  refine ⟨by decide, ?_, by decide, by decide, by decide⟩
  simp [answersInOrder, received]

end Verif.Props
