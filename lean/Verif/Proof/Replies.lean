import Verif.Model.Replies
import Verif.Spec.Replies
/-!
# Lemmas for the reply functions
-/
namespace Verif.Proof
open Verif.Model Verif.Spec

/-- What the sending thread makes visible of a queued message. -/
def obs (d : OutMsg) : Answer :=
  { type := d.type, msgno := d.msgno, ansno := if d.type = .ans then d.ansno else 0, more := d.fixedMore
    octets := d.message }

theorem addReply_at (m : Int) (r : Reply) (A : List Entry) (e : Entry) (B : List Entry) (he : e.msgno = m)
    (hB : ∀ x ∈ B, x.msgno ≠ m) :
    addReply m r (A ++ e :: B) = A ++ { e with replies := e.replies ++ [r] } :: B := by
  induction A with
  | nil =>
    have : B.any (·.msgno = m) = false := by
      rw [List.any_eq_false]; intro x hx; simpa using hB x hx
    simp [addReply, this, he]
  | cons a A ih =>
    have : (A ++ e :: B).any (·.msgno = m) = true := by
      rw [List.any_eq_true]; exact ⟨e, by simp, by simpa using he⟩
    rw [List.cons_append, addReply, this, ih]
    simp

def nAns (xs : List Reply) : Nat := xs.countP (fun r => r.type = .ans)

def contOf (c : Bool) (xs : List Reply) : Bool := (xs.getLast?.map (·.more)).getD c

theorem contOf_snoc (c : Bool) (xs : List Reply) (r : Reply) : contOf c (xs ++ [r]) = r.more := by
  simp [contOf]

theorem nAns_snoc (xs : List Reply) (r : Reply) :
    nAns (xs ++ [r]) = nAns xs + if r.type = .ans then 1 else 0 := by
  unfold nAns; rw [List.countP_append, List.countP_singleton]; simp

theorem nAns_le (xs : List Reply) : nAns xs ≤ xs.length := List.countP_le_length

/-- The answer expected for reply `r` after `xs`. -/
def answerAfter (hdr : List Byte) (m : Int) (k : Nat) (c : Bool) (xs : List Reply) (r : Reply) : Answer :=
  { type := r.type, msgno := m, ansno := if r.type = .ans then ((k + nAns xs : Nat) : Int) else 0, more := r.more
    octets := (if contOf c xs then [] else hdr) ++ r.body }

theorem answersFrom_snoc (hdr : List Byte) (m : Int) (k : Nat) (c : Bool) (xs : List Reply) (r : Reply) :
    answersFrom hdr m k c (xs ++ [r]) = answersFrom hdr m k c xs ++ [answerAfter hdr m k c xs r] := by
  induction xs generalizing k c with
  | nil => cases c <;> simp [answersFrom, answerAfter, nAns, contOf]
  | cons x xs ih =>
    rw [List.cons_append, answersFrom, ih, answersFrom]
    simp only [List.cons_append, List.cons.injEq, true_and, List.append_cancel_left_eq, and_true]
    unfold answerAfter
    have hc : contOf x.more xs = contOf c (x :: xs) := by
      unfold contOf
      cases xs with
      | nil => simp
      | cons y ys =>
        rw [List.getLast?_cons_cons]
        cases h : (y :: ys).getLast? with
        | none => simp at h
        | some z => rfl
    have hn : (if x.type = .ans then k + 1 else k) + nAns xs = k + nAns (x :: xs) := by
      unfold nAns
      rw [List.countP_cons]
      by_cases h : x.type = .ans <;> simp [h] <;> omega
    rw [hc, hn]

theorem answersFrom_prefix (hdr : List Byte) (m : Int) (k : Nat) (c : Bool) (xs ys : List Reply) :
    answersFrom hdr m k c xs <+: answersFrom hdr m k c (xs ++ ys) := by
  induction xs generalizing k c with
  | nil => simp [answersFrom]
  | cons x xs ih =>
    rw [List.cons_append, answersFrom, answersFrom]
    exact List.cons_prefix_cons.2 ⟨rfl, ih _ _⟩

theorem answersFrom_length (hdr : List Byte) (m : Int) (k : Nat) (c : Bool) (xs : List Reply) :
    (answersFrom hdr m k c xs).length = xs.length := by
  induction xs generalizing k c with
  | nil => rfl
  | cons x xs ih => simp [answersFrom, ih]

/-- The answers of completed messages. -/
def outs (hdr : List Byte) (D : List Entry) : List Answer := D.flatMap (·.answers hdr)

theorem outs_snoc (hdr : List Byte) (D : List Entry) (e : Entry) :
    outs hdr (D ++ [e]) = outs hdr D ++ e.answers hdr := by simp [outs]

theorem expected_append (hdr : List Byte) (D P : List Entry) (hD : ∀ e ∈ D, e.complete = true) :
    expected hdr (D ++ P) = outs hdr D ++ expected hdr P := by
  induction D with
  | nil => simp [outs]
  | cons e D ih =>
    rw [List.cons_append, expected, if_pos (hD e (by simp)), ih (fun x hx => hD x (by simp [hx]))]
    simp [outs]

/-- The replies to a message form a legal sequence. -/
def Shape (rs : List Reply) : Prop :=
  ∀ sent r rest, rs = sent ++ r :: rest → Follows sent r ∧ ∀ x ∈ sent, x.final = false

theorem Shape.nil : Shape [] := by
  intro s r t h; simp at h

theorem Shape.snoc {rs : List Reply} {r : Reply} (h : Shape rs) (hn : ∀ x ∈ rs, x.final = false)
    (hf : Follows rs r) : Shape (rs ++ [r]) := by
  intro s r' t e
  rcases List.eq_nil_or_concat t with ht | ⟨t', y, ht⟩
  · subst ht
    have := List.append_inj' e rfl
    obtain ⟨h1, h2⟩ := this
    simp only [List.cons.injEq, and_true] at h2
    subst h1 h2
    exact ⟨hf, hn⟩
  · rw [ht, List.concat_eq_append] at e
    rw [show s ++ r' :: (t' ++ [y]) = (s ++ r' :: t') ++ [y] by simp] at e
    have := List.append_inj' e rfl
    exact h s r' t' this.1

theorem follows_type {xs : List Reply} {r : Reply} (h : Follows xs r) :
    r.type = .rpy ∨ r.type = .err ∨ r.type = .ans ∨ r.type = .nul := by
  unfold Follows at h
  split at h <;> simp_all

theorem follows_ans {xs : List Reply} {r : Reply} (h : Follows xs r) (ht : r.type = .ans ∨ r.type = .nul) :
    r.more = false ∧ ∀ x ∈ xs, x.type = .ans := by
  unfold Follows at h
  rcases ht with ht | ht <;> simp only [ht] at h <;> exact h

theorem follows_rpy {xs : List Reply} {r : Reply} (h : Follows xs r) (ht : r.type = .rpy ∨ r.type = .err) :
    ∀ x ∈ xs, x.type = r.type ∧ x.more = true := by
  unfold Follows at h
  rcases ht with ht | ht <;> simp only [ht] at h ⊢ <;> exact h

def dkey (d : OutMsg) : FType × Int × Bool × List Byte := (d.type, d.msgno, d.fixedMore, d.message)
def rkey (hdr : List Byte) (m : Int) (r : Reply) : FType × Int × Bool × List Byte :=
  (r.type, m, r.more, hdr ++ r.body)

/-- A stored value represents replies given and not sent. -/
inductive Repr (hdr : List Byte) (m : Int) : Option Stored → List Reply → Prop
  | none : Repr hdr m none []
  | single {d r} : (r.type = .rpy ∨ r.type = .err) → dkey d = rkey hdr m r → Repr hdr m (some (.single d)) [r]
  | list {ds rs} : ds ≠ [] → (∀ r ∈ rs, r.type = .ans ∨ r.type = .nul) → ds.map dkey = rs.map (rkey hdr m) →
      Repr hdr m (some (.list ds)) rs

structure Base (hdr : List Byte) (b : Book) (s : ReplyChan) (D P : List Entry) : Prop where
  hL : b.ledger = D ++ P
  hD : ∀ e ∈ D, e.complete = true
  shapeD : ∀ e ∈ D, Shape e.replies
  pend : s.inc.pending = P.map (·.msgno)
  nodup : (P.map (·.msgno)).Nodup
  nonneg : ∀ e ∈ P, 0 ≤ e.msgno
  frag : s.inc.fragment = -1 ↔ b.receiving = false
  mime : s.mime = hdr
  shape : ∀ e ∈ P, Shape e.replies
  len : ∀ e ∈ P, e.replies.length ≤ 2147483647
  out : ∀ m, m ∉ P.map (·.msgno) → s.stored m = none ∧ s.indication m = false
  ind : ∀ e ∈ P, s.indication e.msgno = contOf false e.replies
  ok : s.broken = false
  tail : ∀ e ∈ P.tail, Repr hdr e.msgno (s.stored e.msgno) e.replies

/-- The state of the message that is first. -/
def Head (hdr : List Byte) (s : ReplyChan) (D : List Entry) : List Entry → Prop
  | [] => (s.phase = .idle ∨ s.phase = .fetching) ∧ s.lastAns = 0 ∧ s.queue.map obs = outs hdr D
  | h :: _ => ∃ sent cur rest, h.replies = sent ++ cur ++ rest ∧ (∀ x ∈ sent, x.final = false) ∧
      s.lastAns = nAns sent ∧ s.queue.map obs = outs hdr D ++ answersFrom hdr h.msgno 0 false sent ∧
      match s.phase with
      | .idle => cur = [] ∧ rest = [] ∧ s.stored h.msgno = none
      | .fetching => cur = [] ∧ Repr hdr h.msgno (s.stored h.msgno) rest ∧ (rest ≠ [] → contOf false sent = false)
      | .sending m d => ∃ r, cur = [r] ∧ m = h.msgno ∧ obs d = answerAfter hdr h.msgno 0 false sent r ∧
          ((r.type = .ans ∨ r.type = .nul) → Repr hdr h.msgno (s.stored h.msgno) rest) ∧
          ((r.type = .rpy ∨ r.type = .err) → rest = [])

def Inv (hdr : List Byte) (b : Book) (s : ReplyChan) : Prop :=
  ∃ D P, Base hdr b s D P ∧ Head hdr s D P

theorem inv_init (hdr : List Byte) (ch : Int) : Inv hdr .init (.init ch hdr) := by
  refine ⟨[], [], ?_, ?_⟩
  · constructor <;> simp [Book.init, ReplyChan.init, Incoming.init]
  · simp [Head, ReplyChan.init, outs]

theorem inv_frame {hdr b s more m s'} (hi : Inv hdr b s) (hm : 0 ≤ m) (h : s.frame more m = some s') :
    Inv hdr (b.frame more m) s' := by
  obtain ⟨D, P, hb, hh⟩ := hi
  unfold ReplyChan.frame at h
  cases hc : s.inc.check more m with
  | none => rw [hc] at h; simp at h
  | some inc =>
    rw [hc] at h
    simp only [Option.some.injEq] at h
    subst h
    unfold Incoming.check at hc
    by_cases h1 : s.inc.fragment ≠ -1 ∧ s.inc.fragment ≠ m
    · rw [if_pos h1] at hc; simp at hc
    rw [if_neg h1] at hc
    by_cases h2 : s.inc.fragment = -1
    · -- first frame of a message
      have hr : b.receiving = false := hb.frag.1 h2
      have key : m ∉ s.inc.pending ∧ inc.pending = s.inc.pending ++ [m] ∧
          (inc.fragment = -1 ↔ more = false) := by
        by_cases hmore : more = true
        · simp only [hmore, if_true, h2] at hc
          by_cases h3 : m ∈ s.inc.pending
          · rw [if_pos h3] at hc; simp at hc
          · rw [if_neg h3] at hc
            simp only [Option.some.injEq] at hc
            subst hc
            refine ⟨h3, rfl, ?_⟩
            simp only [hmore]
            constructor
            · intro h; omega
            · intro h; cases h
        · have hf : more = false := by simpa using hmore
          simp only [hf, h2, ne_eq, not_true_eq_false, if_false, Bool.false_eq_true] at hc
          by_cases h3 : m ∈ s.inc.pending
          · rw [if_pos h3] at hc; simp at hc
          · rw [if_neg h3] at hc
            simp only [Option.some.injEq] at hc
            subst hc
            exact ⟨h3, rfl, by simp [hf]⟩
      obtain ⟨k1, k2, k3⟩ := key
      have hmP : m ∉ P.map (·.msgno) := by rw [← hb.pend]; exact k1
      refine ⟨D, P ++ [⟨m, []⟩], ?_, ?_⟩
      · constructor
        · simp [Book.frame, hr, hb.hL]
        · exact hb.hD
        · exact hb.shapeD
        · simp [k2, hb.pend]
        · rw [List.map_append, List.nodup_append]
          refine ⟨hb.nodup, by simp, ?_⟩
          intro a ha c hc' e
          simp at hc'
          subst e hc'
          exact hmP ha
        · intro e he
          rcases List.mem_append.1 he with h | h
          · exact hb.nonneg e h
          · simp at h; subst h; exact hm
        · simpa [Book.frame] using k3
        · exact hb.mime
        · intro e he
          rcases List.mem_append.1 he with h | h
          · exact hb.shape e h
          · simp at h; subst h; exact Shape.nil
        · intro e he
          rcases List.mem_append.1 he with h | h
          · exact hb.len e h
          · simp at h; subst h; simp
        · intro k hk
          exact hb.out k (by intro h; exact hk (by simp only [List.map_append, List.mem_append]; exact Or.inl h))
        · intro e he
          rcases List.mem_append.1 he with h | h
          · exact hb.ind e h
          · simp at h; subst h; exact (hb.out m hmP).2
        · exact hb.ok
        · cases P with
          | nil => simp
          | cons p P =>
            intro e he
            simp only [List.cons_append, List.tail_cons, List.mem_append, List.mem_singleton] at he
            rcases he with h | h
            · exact hb.tail e (by simpa using h)
            · subst h
              show Repr hdr m (s.stored m) []
              rw [(hb.out m hmP).1]
              exact .none
      · cases P with
        | nil =>
          obtain ⟨p1, p2, p3⟩ := hh
          refine ⟨[], [], [], rfl, by simp, by simpa [nAns] using p2, by simpa [answersFrom] using p3, ?_⟩
          have hs : s.stored m = none := (hb.out m hmP).1
          rcases p1 with p | p
          · simp [p, hs]
          · simp only [p]
            refine ⟨trivial, ?_, by simp⟩
            show Repr hdr m (s.stored m) []
            rw [hs]; exact .none
        | cons p P => exact hh
    · -- continuation
      have hr : b.receiving = true := by
        cases hx : b.receiving
        · exact absurd (hb.frag.2 hx) h2
        · rfl
      have key : inc.pending = s.inc.pending ∧ (inc.fragment = -1 ↔ more = false) := by
        by_cases hmore : more = true
        · simp only [hmore, if_true, h2, if_false, Option.some.injEq] at hc
          subst hc
          exact ⟨rfl, by simp [hmore, h2]⟩
        · have hf : more = false := by simpa using hmore
          simp only [hf, h2, ne_eq, not_false_eq_true, if_true, Bool.false_eq_true, if_false,
            Option.some.injEq] at hc
          subst hc
          exact ⟨rfl, by simp [hf]⟩
      refine ⟨D, P, ?_, ?_⟩
      · exact { hb with
          hL := by simp [Book.frame, hr, hb.hL]
          pend := by simp [key.1, hb.pend]
          frag := by simpa [Book.frame] using key.2 }
      · cases P with
        | nil => exact hh
        | cons p P => exact hh

theorem split_open {D P A B : List Entry} {e : Entry} (h : A ++ e :: B = D ++ P)
    (hD : ∀ x ∈ D, x.complete = true) (he : e.complete = false) :
    ∃ P1, A = D ++ P1 ∧ P = P1 ++ e :: B := by
  rcases List.append_eq_append_iff.1 h with ⟨cs, h1, h2⟩ | ⟨cs, h1, h2⟩
  · -- D = A ++ cs
    cases cs with
    | nil => exact ⟨[], by simpa using h1.symm, by simpa using h2.symm⟩
    | cons c cs =>
      simp only [List.cons_append, List.cons.injEq] at h2
      have : e ∈ D := by rw [h1, h2.1]; simp
      rw [hD e this] at he
      cases he
  · exact ⟨cs, h1, h2⟩

theorem base_update {hdr b s D P1 e B e' b' s'} (hb : Base hdr b s D (P1 ++ e :: B))
    (hm : e'.msgno = e.msgno) (hL : b'.ledger = D ++ (P1 ++ e' :: B)) (hr : b'.receiving = b.receiving)
    (hinc : s'.inc = s.inc) (hmime : s'.mime = s.mime) (hbr : s'.broken = s.broken)
    (hst : ∀ k, k ≠ e.msgno → s'.stored k = s.stored k) (hin : ∀ k, k ≠ e.msgno → s'.indication k = s.indication k)
    (hie : s'.indication e.msgno = contOf false e'.replies) (hsh : Shape e'.replies)
    (hlen : e'.replies.length ≤ 2147483647)
    (hre : P1 ≠ [] → Repr hdr e.msgno (s'.stored e.msgno) e'.replies) :
    Base hdr b' s' D (P1 ++ e' :: B) := by
  have hmap : (P1 ++ e' :: B).map (·.msgno) = (P1 ++ e :: B).map (·.msgno) := by simp [hm]
  have nd := hb.nodup
  simp only [List.map_append, List.map_cons, List.nodup_append, List.nodup_cons] at nd
  have hne1 : ∀ x ∈ P1, x.msgno ≠ e.msgno := by
    intro x hx
    exact nd.2.2 _ (List.mem_map.2 ⟨x, hx, rfl⟩) _ (by simp)
  have hne2 : ∀ x ∈ B, x.msgno ≠ e.msgno := by
    intro x hx h
    exact nd.2.1.1 (List.mem_map.2 ⟨x, hx, h⟩)
  have hmem : ∀ x ∈ P1 ++ e' :: B, x = e' ∨ (x ∈ P1 ++ e :: B ∧ x.msgno ≠ e.msgno) := by
    intro x hx
    rcases List.mem_append.1 hx with h | h
    · exact Or.inr ⟨by simp [h], hne1 x h⟩
    · rcases List.mem_cons.1 h with h | h
      · exact Or.inl h
      · exact Or.inr ⟨by simp [h], hne2 x h⟩
  constructor
  · exact hL
  · exact hb.hD
  · exact hb.shapeD
  · rw [hinc, hmap]; exact hb.pend
  · rw [hmap]; exact hb.nodup
  · intro x hx
    rcases hmem x hx with h | h
    · rw [h, hm]; exact hb.nonneg e (by simp)
    · exact hb.nonneg x h.1
  · rw [hinc, hr]; exact hb.frag
  · rw [hmime]; exact hb.mime
  · intro x hx
    rcases hmem x hx with h | h
    · rw [h]; exact hsh
    · exact hb.shape x h.1
  · intro x hx
    rcases hmem x hx with h | h
    · rw [h]; exact hlen
    · exact hb.len x h.1
  · intro k hk
    rw [hmap] at hk
    have : k ≠ e.msgno := by
      intro h; exact hk (by rw [h]; simp)
    rw [hst k this, hin k this]
    exact hb.out k hk
  · intro x hx
    rcases hmem x hx with h | h
    · rw [h, hm]; exact hie
    · rw [hin _ h.2]; exact hb.ind x h.1
  · rw [hbr]; exact hb.ok
  · intro x hx
    cases P1 with
    | nil =>
      have hx' : x ∈ B := by simpa using hx
      rw [hst _ (hne2 x hx')]
      exact hb.tail x (by simpa using hx')
    | cons p P1 =>
      have hx' : x ∈ P1 ++ e' :: B := by simpa using hx
      rcases hmem x (by simp at hx' ⊢; exact Or.inr hx') with h | h
      · rw [h, hm]; exact hre (by simp)
      · rw [hst _ h.2]
        apply hb.tail
        simp only [List.cons_append, List.tail_cons]
        rcases List.mem_append.1 hx' with g | g
        · simp [g]
        · rcases List.mem_cons.1 g with g | g
          · rw [g, hm] at h; exact absurd rfl h.2
          · simp [g]

theorem complete_false {rs : List Reply} {m : Int} (h : (Entry.mk m rs).complete = false) :
    ∀ x ∈ rs, x.final = false := by
  intro x hx
  unfold Entry.complete at h
  rw [List.any_eq_false] at h
  simpa using h x hx

theorem head_ne {P1 : List Entry} {h : Entry} {T : List Entry} (e : P1 = h :: T) (s : ReplyChan)
    (x : List Entry) (hp : s.inc.pending = (P1 ++ x).map (·.msgno)) : s.inc.nextReplyNo = h.msgno := by
  subst e
  simp [Incoming.nextReplyNo, hp]

theorem skipMime_at (ind : Int → Bool) (more : Bool) (m : Int) :
    (skipMime ind more m).1 = ind m ∧ (skipMime ind more m).2 m = more ∧
    ∀ k, k ≠ m → (skipMime ind more m).2 k = ind k := by
  unfold skipMime setAt
  by_cases h : more = true
  · by_cases h2 : ind m = true
    · simp [h, h2]
    · simp only [h, if_true, h2, Bool.false_eq_true, if_false]
      exact ⟨by simpa using h2, trivial, fun k hk => by simp [hk]⟩
  · have : more = false := by simpa using h
    subst this
    simp only [Bool.false_eq_true, if_false, true_and]
    exact ⟨if_pos trivial, fun k hk => by simp [hk]⟩

theorem inv_reply {hdr b s m r v s'} (hi : Inv hdr b s) (ha : AllowedInTurn b.ledger m r)
    (h : s.reply m r.type r.more r.body = some (v, s')) : v = true ∧ Inv hdr (b.reply m r) s' := by
  obtain ⟨D, P, hb, hh⟩ := hi
  obtain ⟨A, e, B, hL, hem, hB, hc, hf, hl, hturn⟩ := ha
  have hL2 : A ++ e :: B = D ++ P := by rw [← hL, hb.hL]
  obtain ⟨P1, hA, hP⟩ := split_open hL2 hb.hD hc
  subst hP
  have hnf : ∀ x ∈ e.replies, x.final = false := complete_false (m := e.msgno) hc
  have hsh : Shape (e.replies ++ [r]) := (hb.shape e (by simp)).snoc hnf hf
  have hlen : (e.replies ++ [r]).length ≤ 2147483647 := by simp; omega
  have hL' : (b.reply m r).ledger = D ++ (P1 ++ { e with replies := e.replies ++ [r] } :: B) := by
    show addReply m r b.ledger = _
    rw [hL, addReply_at m r A e B hem hB, hA, List.append_assoc]
  obtain ⟨sk1, sk2, sk3⟩ := skipMime_at s.indication r.more m
  have hskip : (skipMime s.indication r.more m).1 = contOf false e.replies := by
    rw [sk1, ← hem]; exact hb.ind e (by simp)
  unfold ReplyChan.reply at h
  by_cases hp : s.phase ≠ .idle
  · rw [if_pos hp] at h; cases h
  have hidle : s.phase = .idle := by simpa using hp
  rw [if_neg hp] at h
  simp only [hskip] at h
  generalize hd : (OutMsg.mk r.type s.channel m s.lastAns r.more
    ((if contOf false e.replies = true then [] else s.mime) ++ r.body)) = d at h
  generalize hind : (skipMime s.indication r.more m).2 = ind at *
  cases P1 with
  | nil =>
    have hnext : s.inc.nextReplyNo = m := by simp [Incoming.nextReplyNo, hb.pend, hem]
    rw [if_neg (by simpa using hnext)] at h
    simp only [Option.some.injEq, Prod.mk.injEq] at h
    obtain ⟨hv, hs⟩ := h
    subst hs
    refine ⟨hv.symm, D, { e with replies := e.replies ++ [r] } :: B, ?_, ?_⟩
    · refine base_update (P1 := []) (e' := { e with replies := e.replies ++ [r] }) hb rfl hL' rfl rfl rfl rfl ?_ ?_ ?_ hsh hlen ?_
      · intro k _; rfl
      · intro k hk; exact sk3 k (by rw [← hem]; exact hk)
      · show ind e.msgno = contOf false (e.replies ++ [r])
        rw [contOf_snoc, hem]; exact sk2
      · intro h; exact absurd rfl h
    · obtain ⟨sent, cur, rest, h1, h2, h3, h4, h5⟩ := hh
      rw [hidle] at h5
      obtain ⟨h5, h6, h7⟩ := h5
      subst h5 h6
      have hse : e.replies = sent := by simpa using h1
      refine ⟨sent, [r], [], by simp [hse], h2, h3, h4, ?_⟩
      refine ⟨r, rfl, hem.symm, ?_, ?_, ?_⟩
      · rw [← hd]
        unfold obs answerAfter
        simp only [hse, h3, hb.mime, hem]
        simp
      · intro _
        show Repr hdr e.msgno (s.stored e.msgno) []
        rw [h7]; exact .none
      · intro _; rfl
  | cons p P1 =>
    have hpm : ∀ x ∈ p :: P1, x.msgno ≠ e.msgno := by
      have nd := hb.nodup
      simp only [List.map_append, List.map_cons, List.nodup_append] at nd
      intro x hx
      exact nd.2.2 _ (List.mem_map.2 ⟨x, hx, rfl⟩) _ (by simp)
    have hnext : s.inc.nextReplyNo ≠ m := by
      have : s.inc.nextReplyNo = p.msgno := by simp [Incoming.nextReplyNo, hb.pend]
      rw [this, ← hem]; exact hpm p (by simp)
    rw [if_pos hnext] at h
    have hst := hb.tail e (by simp)
    have hcont : contOf false e.replies = false := by
      by_cases ht : r.type = .rpy ∨ r.type = .err
      · have : e.replies = [] := by
          apply Classical.byContradiction
          intro hne
          have hAll := hturn ht hne p (by rw [hA]; simp)
          -- the first message would be complete
          obtain ⟨sent, cur, rest, h1, h2, h3, h4, h5⟩ := hh
          rw [hidle] at h5
          obtain ⟨h5, h6, h7⟩ := h5
          subst h5 h6
          have hps : p.replies = sent := by simpa using h1
          unfold Entry.complete at hAll
          rw [List.any_eq_true] at hAll
          obtain ⟨x, hx, hxf⟩ := hAll
          rw [hps] at hx
          rw [h2 x hx] at hxf
          cases hxf
        rw [this]; rfl
      · have ht' : r.type = .ans ∨ r.type = .nul := by
          rcases follows_type hf with h | h | h | h
          · exact absurd (Or.inl h) ht
          · exact absurd (Or.inr h) ht
          · exact Or.inl h
          · exact Or.inr h
        have := (follows_ans hf ht').2
        rcases List.eq_nil_or_concat e.replies with hn | ⟨l, y, hn⟩
        · rw [hn]; rfl
        · rw [List.concat_eq_append] at hn
          rw [hn, contOf_snoc]
          have hsp := hb.shape e (by simp)
          have hfy := (hsp l y [] hn).1
          exact (follows_ans hfy (Or.inl (this y (by rw [hn]; simp)))).1
    have hmsg : dkey d = rkey hdr e.msgno r := by
      rw [← hd]; simp [dkey, rkey, hcont, hb.mime, hem]
    -- common conclusion
    have fin : ∀ st : Stored, Repr hdr e.msgno (some st) (e.replies ++ [r]) →
        Inv hdr (b.reply m r) { s with indication := ind, stored := setAt s.stored m (some st) } := by
      intro st hst'
      refine ⟨D, (p :: P1) ++ { e with replies := e.replies ++ [r] } :: B, ?_, ?_⟩
      · refine base_update (e' := { e with replies := e.replies ++ [r] }) hb rfl hL' rfl rfl rfl rfl ?_ ?_ ?_ hsh hlen ?_
        · intro k hk
          show setAt s.stored m (some st) k = s.stored k
          simp only [setAt, ← hem, if_neg hk]
        · intro k hk; exact sk3 k (by rw [← hem]; exact hk)
        · show ind e.msgno = contOf false (e.replies ++ [r])
          rw [contOf_snoc, hem]; exact sk2
        · intro _
          show Repr hdr e.msgno (setAt s.stored m (some st) e.msgno) (e.replies ++ [r])
          simp only [setAt, ← hem, if_true]
          exact hst'
      · obtain ⟨sent, cur, rest, h1, h2, h3, h4, h5⟩ := hh
        rw [hidle] at h5
        refine ⟨sent, cur, rest, h1, h2, h3, h4, ?_⟩
        show (match s.phase with
          | .idle => cur = [] ∧ rest = [] ∧ setAt s.stored m (some st) p.msgno = none
          | .fetching => _
          | .sending m d => _)
        rw [hidle]
        refine ⟨h5.1, h5.2.1, ?_⟩
        simp only [setAt, ← hem, if_neg (hpm p (by simp))]
        exact h5.2.2
    by_cases ht : r.type = .nul ∨ r.type = .ans
    · rw [if_pos ht] at h
      have ht' : r.type = .ans ∨ r.type = .nul := ht.symm
      have hall := (follows_ans hf ht').2
      rw [hem] at hst
      generalize hsm : s.stored m = sm at h hst
      generalize hrs : e.replies = rs at hst
      cases hst with
      | none =>
        simp only [Option.some.injEq, Prod.mk.injEq] at h
        obtain ⟨hv, hs⟩ := h
        subst hs
        refine ⟨hv.symm, fin _ ?_⟩
        rw [hrs]
        exact .list (by simp) (by intro x hx; simp at hx; subst hx; exact ht') (by simp [hmsg])
      | single hty hkey =>
        rename_i d0 r0
        have := hall r0 (by rw [hrs]; simp)
        rcases hty with h | h <;> rw [this] at h <;> cases h
      | list hne hty hkey =>
        rename_i ds
        rw [← hrs] at hty hkey
        have hlast : ¬ (r.type = .nul ∧ ds.getLast?.map (·.type) = some .nul) := by
          rintro ⟨_, hl2⟩
          have e1 : (ds.map dkey).getLast?.map (·.1) = (e.replies.map (rkey hdr m)).getLast?.map (·.1) := by
            rw [hkey]
          rw [List.getLast?_map, List.getLast?_map, Option.map_map, Option.map_map] at e1
          have e2 : ds.getLast?.map (·.type) = e.replies.getLast?.map (·.type) := e1
          rw [e2] at hl2
          cases hgl : e.replies.getLast? with
          | none => rw [hgl] at hl2; cases hl2
          | some y =>
            rw [hgl] at hl2
            have hy := hall y (List.mem_of_getLast? hgl)
            simp [hy] at hl2
        simp only [if_neg hlast, Option.some.injEq, Prod.mk.injEq] at h
        obtain ⟨hv, hs⟩ := h
        subst hs
        refine ⟨hv.symm, fin _ ?_⟩
        refine .list (by simp) ?_ ?_
        · intro x hx
          rcases List.mem_append.1 hx with g | g
          · exact hty x g
          · simp at g; subst g; exact ht'
        · rw [hem, List.map_append, List.map_append, hkey]
          simp [hmsg, hem]
    · rw [if_neg ht] at h
      have ht' : r.type = .rpy ∨ r.type = .err := by
        rcases follows_type hf with h | h | h | h
        · exact Or.inl h
        · exact Or.inr h
        · exact absurd (Or.inr h) ht
        · exact absurd (Or.inl h) ht
      simp only [Option.some.injEq, Prod.mk.injEq] at h
      obtain ⟨hv, hs⟩ := h
      subst hs
      refine ⟨hv.symm, fin _ ?_⟩
      have hnil : e.replies = [] := by
        rcases List.eq_nil_or_concat e.replies with hn | ⟨l, y, hn⟩
        · exact hn
        · rw [List.concat_eq_append] at hn
          have := follows_rpy hf ht' y (by rw [hn]; simp)
          rw [hn, contOf_snoc, this.2] at hcont
          cases hcont
      rw [hnil]
      exact .single ht' hmsg

theorem base_head {hdr b s D h T} {s' : ReplyChan} (hb : Base hdr b s D (h :: T))
    (hinc : s'.inc = s.inc) (hmime : s'.mime = s.mime) (hbr : s'.broken = s.broken)
    (hin : s'.indication = s.indication) (hst : ∀ k, k ≠ h.msgno → s'.stored k = s.stored k) :
    Base hdr b s' D (h :: T) := by
  have nd := hb.nodup
  simp only [List.map_cons, List.nodup_cons] at nd
  refine { hb with
    pend := by rw [hinc]; exact hb.pend
    frag := by rw [hinc]; exact hb.frag
    mime := by rw [hmime]; exact hb.mime
    ok := by rw [hbr]; exact hb.ok
    ind := by rw [hin]; exact hb.ind
    out := ?_
    tail := ?_ }
  · intro k hk
    have : k ≠ h.msgno := by intro e; exact hk (by simp [e])
    rw [hst k this, hin]
    exact hb.out k hk
  · intro x hx
    have hx' : x ∈ T := by simpa using hx
    have : x.msgno ≠ h.msgno := by
      intro e; exact nd.1 (List.mem_map.2 ⟨x, hx', e⟩)
    rw [hst _ this]
    exact hb.tail x hx

theorem inv_fetch {hdr b s s'} (hi : Inv hdr b s) (h : s.fetch = some s') : Inv hdr b s' := by
  obtain ⟨D, P, hb, hh⟩ := hi
  unfold ReplyChan.fetch at h
  cases hp : s.phase with
  | idle => rw [hp] at h; cases h
  | sending m d => rw [hp] at h; cases h
  | fetching =>
    simp only [hp] at h
    cases P with
    | nil =>
      have hn : s.inc.nextReplyNo = -1 := by simp [Incoming.nextReplyNo, hb.pend]
      rw [hn, (hb.out (-1) (by simp)).1] at h
      simp only [Option.some.injEq] at h
      subst h
      exact ⟨D, [], { hb with }, Or.inl rfl, hh.2⟩
    | cons e T =>
      have hn : s.inc.nextReplyNo = e.msgno := by simp [Incoming.nextReplyNo, hb.pend]
      rw [hn] at h
      obtain ⟨sent, cur, rest, h1, h2, h3, h4, h5⟩ := hh
      rw [hp] at h5
      obtain ⟨h5, h6, h7⟩ := h5
      subst h5
      generalize hsm : s.stored e.msgno = sm at h h6
      cases h6 with
      | none =>
        simp only [Option.some.injEq] at h
        subst h
        exact ⟨D, e :: T, base_head hb rfl rfl rfl rfl (fun _ _ => rfl), sent, [], [], h1, h2, h3, h4, rfl, rfl, hsm⟩
      | single hty hkey =>
        rename_i d r
        simp only [Option.some.injEq] at h
        subst h
        have hfol := ((hb.shape e (by simp)) sent r [] (by simpa using h1)).1
        refine ⟨D, e :: T, base_head hb rfl rfl rfl rfl (fun _ _ => rfl), sent, [r], [], by simpa using h1, h2, h3, h4, ?_⟩
        refine ⟨r, rfl, rfl, ?_, ?_, fun _ => rfl⟩
        · have hc := h7 (by simp)
          simp only [dkey, rkey, Prod.mk.injEq] at hkey
          unfold obs answerAfter
          have hna : r.type ≠ .ans := by rcases hty with g | g <;> rw [g] <;> decide
          simp [hkey, hc, hna]
        · intro g
          rcases hty with k | k <;> rw [k] at g <;> rcases g with g | g <;> cases g
      | list hne hty hkey =>
        rename_i ds
        cases ds with
        | nil => exact absurd rfl hne
        | cons d l =>
          simp only [Option.some.injEq] at h
          subst h
          cases rest with
          | nil => simp at hkey
          | cons r rest =>
            simp only [List.map_cons, List.cons.injEq] at hkey
            refine ⟨D, e :: T, base_head hb rfl rfl rfl rfl ?_, sent, [r], rest, by simpa using h1, h2, h3, h4, ?_⟩
            · intro k hk
              simp only [setAt, if_neg hk]
            · refine ⟨r, rfl, rfl, ?_, ?_, ?_⟩
              · have hc := h7 (by simp)
                obtain ⟨k1, k2⟩ := hkey
                simp only [dkey, rkey, Prod.mk.injEq] at k1
                unfold obs answerAfter
                simp [k1, hc, h3]
              · intro _
                show Repr hdr e.msgno (setAt s.stored e.msgno _ e.msgno) rest
                simp only [setAt, if_true]
                by_cases hl : l = []
                · rw [if_pos hl]
                  have : rest = [] := by rw [hl] at hkey; simpa using hkey.2.symm
                  rw [this]; exact .none
                · rw [if_neg hl]
                  exact .list hl (fun x hx => hty x (by simp [hx])) hkey.2
              · intro g
                rcases hty r (by simp) with k | k <;> rw [k] at g <;> rcases g with g | g <;> cases g

/-- The first message leaves the list of messages waiting. -/
theorem base_pop {hdr b s D h T} {s' : ReplyChan} (hb : Base hdr b s D (h :: T))
    (hc : h.complete = true) (hcont : contOf false h.replies = false)
    (hinc : s'.inc = { s.inc with pending := s.inc.pending.drop 1 }) (hmime : s'.mime = s.mime) (hbr : s'.broken = s.broken)
    (hin : s'.indication = s.indication) (hst : ∀ k, k ≠ h.msgno → s'.stored k = s.stored k)
    (hsh : s'.stored h.msgno = none) : Base hdr b s' (D ++ [h]) T := by
  have nd := hb.nodup
  simp only [List.map_cons, List.nodup_cons] at nd
  have hne : ∀ x ∈ T, x.msgno ≠ h.msgno := by
    intro x hx e; exact nd.1 (List.mem_map.2 ⟨x, hx, e⟩)
  constructor
  · rw [hb.hL]; simp
  · intro x hx
    rcases List.mem_append.1 hx with g | g
    · exact hb.hD x g
    · simp at g; subst g; exact hc
  · intro x hx
    rcases List.mem_append.1 hx with g | g
    · exact hb.shapeD x g
    · simp at g; subst g; exact hb.shape x (by simp)
  · rw [hinc, hb.pend]; simp
  · exact nd.2
  · exact fun x hx => hb.nonneg x (by simp [hx])
  · rw [hinc]; exact hb.frag
  · rw [hmime]; exact hb.mime
  · exact fun x hx => hb.shape x (by simp [hx])
  · exact fun x hx => hb.len x (by simp [hx])
  · intro k hk
    by_cases e : k = h.msgno
    · rw [e, hin]
      exact ⟨hsh, by rw [hb.ind h (by simp)]; exact hcont⟩
    · rw [hst k e, hin]
      exact hb.out k (by simp only [List.map_cons, List.mem_cons, not_or]; exact ⟨e, hk⟩)
  · intro x hx; rw [hin]; exact hb.ind x (by simp [hx])
  · rw [hbr]; exact hb.ok
  · intro x hx
    have hx' : x ∈ T := List.mem_of_mem_tail hx
    rw [hst _ (hne x hx')]
    exact hb.tail x (by simpa using hx')

theorem inv_send {hdr b s s'} (hi : Inv hdr b s) (h : s.send = some s') : Inv hdr b s' := by
  obtain ⟨D, P, hb, hh⟩ := hi
  unfold ReplyChan.send at h
  cases hp : s.phase with
  | idle => rw [hp] at h; cases h
  | fetching => rw [hp] at h; cases h
  | sending m d =>
    simp only [hp, Option.some.injEq] at h
    cases P with
    | nil => rcases hh.1 with g | g <;> rw [hp] at g <;> cases g
    | cons e T =>
      obtain ⟨sent, cur, rest, h1, h2, h3, h4, h5⟩ := hh
      rw [hp] at h5
      obtain ⟨r, hcur, hm, hobs, hans, hrpy⟩ := h5
      subst hcur hm
      have hrep : e.replies = sent ++ r :: rest := by simpa using h1
      have hsp := hb.shape e (by simp)
      obtain ⟨hfol, -⟩ := hsp sent r rest hrep
      have hdt : d.type = r.type := by
        have := congrArg Answer.type hobs; simpa [obs, answerAfter] using this
      have hdm : d.fixedMore = r.more := by
        have := congrArg Answer.more hobs; simpa [obs, answerAfter] using this
      have hcount : nAns sent + 1 ≤ 2147483647 := by
        have := hb.len e (by simp)
        rw [hrep] at this
        have h' := nAns_le sent
        simp only [List.length_append, List.length_cons] at this
        omega
      have hq : (s.queue ++ [d]).map obs = outs hdr D ++ answersFrom hdr e.msgno 0 false (sent ++ [r]) := by
        rw [List.map_append, h4, answersFrom_snoc, List.map_cons, hobs]; simp
      have hrem : s.inc.removeFirst e.msgno = (true, { s.inc with pending := s.inc.pending.drop 1 }) := by
        unfold Incoming.removeFirst
        rw [hb.pend]; simp
      -- a final reply is the last one
      have hfinal : r.final = true → rest = [] ∧ e.complete = true ∧ contOf false e.replies = false := by
        intro hf
        have hrest : rest = [] := by
          cases rest with
          | nil => rfl
          | cons y ys =>
            have := (hsp (sent ++ [r]) y ys (by simp [hrep])).2 r (by simp)
            rw [hf] at this; cases this
        refine ⟨hrest, ?_, ?_⟩
        · unfold Entry.complete
          rw [List.any_eq_true]
          exact ⟨r, by rw [hrep]; simp, hf⟩
        · rw [hrep, hrest, contOf_snoc]
          unfold Reply.final at hf
          rcases follows_type hfol with t | t | t | t
          · simpa [t] using hf
          · simpa [t] using hf
          · simp [t] at hf
          · exact (follows_ans hfol (Or.inr t)).1
      -- new first message
      have fresh : ∀ s'' : ReplyChan, Base hdr b s'' (D ++ [e]) T → s''.phase = .fetching → s''.lastAns = 0 →
          s''.queue = s.queue ++ [d] → rest = [] → (∀ k, k ≠ e.msgno → s''.stored k = s.stored k) →
          Inv hdr b s'' := by
        intro s'' hb'' hph hla hqu hre hsto
        refine ⟨D ++ [e], T, hb'', ?_⟩
        have hqq : s''.queue.map obs = outs hdr (D ++ [e]) := by
          rw [hqu, hq, outs_snoc, Entry.answers, hrep, hre]
        cases T with
        | nil => exact ⟨Or.inr hph, hla, hqq⟩
        | cons t T =>
          refine ⟨[], [], t.replies, rfl, by simp, by simpa [nAns] using hla, by simpa [answersFrom] using hqq, ?_⟩
          rw [hph]
          refine ⟨rfl, ?_, fun _ => rfl⟩
          have hne : t.msgno ≠ e.msgno := by
            have nd := hb.nodup
            simp only [List.map_cons, List.nodup_cons, List.mem_cons, not_or] at nd
            exact fun g => nd.1.1 g.symm
          rw [hsto _ hne]
          exact hb.tail t (by simp)
      -- same first message
      have stay : ∀ s'' : ReplyChan, Base hdr b s'' D (e :: T) → s''.phase = .fetching →
          s''.lastAns = nAns (sent ++ [r]) → s''.queue = s.queue ++ [d] → r.final = false →
          Repr hdr e.msgno (s''.stored e.msgno) rest → (rest ≠ [] → r.more = false) → Inv hdr b s'' := by
        intro s'' hb'' hph hla hqu hf hre hco
        refine ⟨D, e :: T, hb'', sent ++ [r], [], rest, by simp [hrep], ?_, hla, by rw [hqu]; exact hq, ?_⟩
        · intro x hx
          rcases List.mem_append.1 hx with g | g
          · exact h2 x g
          · simp at g; subst g; exact hf
        · rw [hph]
          exact ⟨rfl, hre, by rw [contOf_snoc]; exact hco⟩
      rcases follows_type hfol with t | t | t | t
      · -- RPY
        have hrest := hrpy (Or.inl t)
        rw [t] at hdt
        have hna : nAns sent = 0 := by
          unfold nAns
          rw [List.countP_eq_zero]
          intro x hx
          have := (follows_rpy hfol (Or.inl t) x hx).1
          simp [this, t]
        by_cases hmore : r.more = true
        · simp only [hdt, hdm, hmore, if_true] at h
          subst h
          refine stay _ (base_head hb rfl rfl rfl rfl ?_) rfl ?_ rfl ?_ ?_ ?_
          · intro k hk; simp [setAt, hk]
          · simp [nAns_snoc, t, h3]
          · simp [Reply.final, t, hmore]
          · rw [hrest]; simp [setAt]; exact .none
          · intro g; exact absurd hrest g
        · have hmf : r.more = false := by simpa using hmore
          have hfi : r.final = true := by simp [Reply.final, t, hmf]
          obtain ⟨f1, f2, f3⟩ := hfinal hfi
          simp only [hdt, hdm, hmf, Bool.false_eq_true, if_false, hrem] at h
          subst h
          refine fresh _ (base_pop hb f2 f3 rfl rfl ?_ rfl ?_ ?_) rfl ?_ rfl hrest ?_
          · simp
          · intro k hk; simp [setAt, hk]
          · simp [setAt]
          · simp [h3, hna]
          · intro k hk; simp [setAt, hk]
      · -- ERR
        have hrest := hrpy (Or.inr t)
        rw [t] at hdt
        have hna : nAns sent = 0 := by
          unfold nAns
          rw [List.countP_eq_zero]
          intro x hx
          have := (follows_rpy hfol (Or.inr t) x hx).1
          simp [this, t]
        by_cases hmore : r.more = true
        · simp only [hdt, hdm, hmore, if_true] at h
          subst h
          refine stay _ (base_head hb rfl rfl rfl rfl ?_) rfl ?_ rfl ?_ ?_ ?_
          · intro k hk; simp [setAt, hk]
          · simp [nAns_snoc, t, h3]
          · simp [Reply.final, t, hmore]
          · rw [hrest]; simp [setAt]; exact .none
          · intro g; exact absurd hrest g
        · have hmf : r.more = false := by simpa using hmore
          have hfi : r.final = true := by simp [Reply.final, t, hmf]
          obtain ⟨f1, f2, f3⟩ := hfinal hfi
          simp only [hdt, hdm, hmf, Bool.false_eq_true, if_false, hrem] at h
          subst h
          refine fresh _ (base_pop hb f2 f3 rfl rfl ?_ rfl ?_ ?_) rfl ?_ rfl hrest ?_
          · simp
          · intro k hk; simp [setAt, hk]
          · simp [setAt]
          · simp [h3, hna]
          · intro k hk; simp [setAt, hk]
      · -- ANS
        rw [t] at hdt
        simp only [hdt] at h
        simp only [ne_eq, not_true_eq_false, and_false, if_false] at h
        subst h
        refine stay _ (base_head hb rfl rfl rfl rfl ?_) rfl ?_ rfl ?_ ?_ ?_
        · intro k _; rfl
        · show i32 (s.lastAns + 1) = _
          rw [h3, nAns_snoc, if_pos t]
          unfold i32
          generalize nAns sent = n at *
          omega
        · simp [Reply.final, t]
        · exact hans (Or.inl t)
        · intro _; exact (follows_ans hfol (Or.inl t)).1
      · -- NUL
        rw [t] at hdt
        have hfi : r.final = true := by simp [Reply.final, t]
        obtain ⟨f1, f2, f3⟩ := hfinal hfi
        have hst : s.stored e.msgno = none := by
          have := hans (Or.inr t)
          rw [f1] at this
          generalize s.stored e.msgno = x at this
          cases this with
          | none => rfl
          | list hne _ hk => simp at hk; exact absurd hk hne
        simp only [hdt, hrem] at h
        simp only [ne_eq, not_true_eq_false, false_and, if_false] at h
        subst h
        refine fresh _ (base_pop hb f2 f3 rfl rfl ?_ rfl ?_ ?_) rfl rfl rfl f1 ?_
        · simp
        · intro k _; rfl
        · exact hst
        · intro k _; rfl

/-! ## Conclusions from the invariant -/

theorem inv_queue {hdr b s} (hi : Inv hdr b s) :
    s.queue.map obs <+: expected hdr b.ledger ∧
    (s.phase = .idle → s.queue.map obs = expected hdr b.ledger) ∧ s.broken = false := by
  obtain ⟨D, P, hb, hh⟩ := hi
  rw [hb.hL, expected_append hdr D P hb.hD]
  cases P with
  | nil =>
    obtain ⟨h1, h2, h3⟩ := hh
    rw [h3]
    exact ⟨by simp [expected], fun _ => by simp [expected], hb.ok⟩
  | cons e T =>
    obtain ⟨sent, cur, rest, h1, h2, h3, h4, h5⟩ := hh
    have hpre : answersFrom hdr e.msgno 0 false sent <+: expected hdr (e :: T) := by
      have : answersFrom hdr e.msgno 0 false sent <+: e.answers hdr := by
        unfold Entry.answers
        rw [h1, List.append_assoc]
        exact answersFrom_prefix _ _ _ _ _ _
      rw [expected]
      split
      · exact this.trans (List.prefix_append _ _)
      · exact this
    refine ⟨?_, ?_, hb.ok⟩
    · rw [h4]
      exact (List.prefix_append_right_inj _).2 hpre
    · intro hp
      rw [hp] at h5
      obtain ⟨h5, h6, h7⟩ := h5
      subst h5 h6
      have hs : e.replies = sent := by simpa using h1
      have : e.complete = false := by
        unfold Entry.complete
        rw [List.any_eq_false, hs]
        intro x hx
        simp [h2 x hx]
      rw [h4, expected, this]
      simp [Entry.answers, hs]

theorem inv_sending {hdr b s m d} (hi : Inv hdr b s) (h : s.phase = .sending m d) :
    s.queue.length < (expected hdr b.ledger).length := by
  obtain ⟨D, P, hb, hh⟩ := hi
  rw [hb.hL, expected_append hdr D P hb.hD]
  cases P with
  | nil => rcases hh.1 with g | g <;> rw [h] at g <;> cases g
  | cons e T =>
    obtain ⟨sent, cur, rest, h1, h2, h3, h4, h5⟩ := hh
    rw [h] at h5
    obtain ⟨r, hc, _⟩ := h5
    have hl : s.queue.length = (outs hdr D).length + sent.length := by
      have := congrArg List.length h4
      rw [List.length_map, List.length_append, answersFrom_length] at this
      exact this
    have h6 : e.replies.length ≤ (expected hdr (e :: T)).length := by
      rw [expected]
      split
      · rw [List.length_append, Entry.answers, answersFrom_length]; omega
      · rw [Entry.answers, answersFrom_length]; omega
    rw [h1, hc] at h6
    simp only [List.length_append, List.length_cons, List.length_nil] at h6 ⊢
    omega

theorem ansNumbering_prefix {xs ys : List Answer} : ∀ {k : Nat} {c : Option Int},
    ansNumbering k c (xs ++ ys) → ansNumbering k c xs := by
  induction xs with
  | nil => intro k c _; trivial
  | cons a xs ih =>
    intro k c h
    rw [List.cons_append, ansNumbering] at h
    rw [ansNumbering]
    refine ⟨h.1, ?_⟩
    have h2 := h.2
    split at h2
    · exact ⟨h2.1, ih h2.2⟩
    · exact ih h2
    · rename_i t1 t2
      exact ⟨h2.1, ih h2.2⟩

theorem ansNumbering_entry (hdr : List Byte) (m : Int) (tail : List Answer) (ht : ansNumbering 0 none tail)
    (rs : List Reply) : ∀ (sent : List Reply) (c : Bool), Shape (sent ++ rs) → (∀ x ∈ sent, x.final = false) →
    ((sent ++ rs).any (·.final) = true ∨ tail = []) →
    ansNumbering (nAns sent) (if nAns sent = 0 then none else some m)
      (answersFrom hdr m (nAns sent) c rs ++ tail) := by
  induction rs with
  | nil =>
    intro sent c _ hn hend
    rcases hend with h | h
    · rw [List.append_nil, List.any_eq_true] at h
      obtain ⟨x, hx, hf⟩ := h
      rw [hn x hx] at hf; cases hf
    · subst h; simp only [answersFrom, List.append_nil]; trivial
  | cons r rs ih =>
    intro sent c hsh hn hend
    obtain ⟨hfol, -⟩ := hsh sent r rs rfl
    have hcur : ∀ x : Answer, x.msgno = m → (if nAns sent = 0 then none else some m) = none ∨
        (if nAns sent = 0 then none else some m) = some x.msgno := by
      intro x hx; rw [hx]; split <;> simp
    have hlast : r.final = true → rs = [] := by
      intro hf
      cases rs with
      | nil => rfl
      | cons y ys =>
        have := (hsh (sent ++ [r]) y ys (by simp)).2 r (by simp)
        rw [hf] at this; cases this
    rw [answersFrom, List.cons_append, ansNumbering]
    refine ⟨hcur _ rfl, ?_⟩
    have hrpy : (r.type = .rpy ∨ r.type = .err) → nAns sent = 0 := by
      intro ht
      unfold nAns
      rw [List.countP_eq_zero]
      intro x hx
      have := (follows_rpy hfol ht x hx).1
      rw [this]
      rcases ht with h | h <;> simp [h]
    have hnext : r.final = false → ansNumbering (nAns (sent ++ [r]))
        (if nAns (sent ++ [r]) = 0 then none else some m)
        (answersFrom hdr m (nAns (sent ++ [r])) r.more rs ++ tail) := by
      intro hf
      refine ih (sent ++ [r]) r.more (by simpa using hsh) ?_ (by simpa using hend)
      intro x hx
      rcases List.mem_append.1 hx with h | h
      · exact hn x h
      · simp at h; subst h; exact hf
    rcases follows_type hfol with t | t | t | t
    · have h0 := hrpy (Or.inl t)
      simp only [t, h0, if_true]
      refine ⟨trivial, ?_⟩
      cases hf : r.final with
      | true => rw [hlast hf]; simpa [answersFrom] using ht
      | false => simpa [nAns_snoc, t, h0] using hnext hf
    · have h0 := hrpy (Or.inr t)
      simp only [t, h0, if_true]
      refine ⟨trivial, ?_⟩
      cases hf : r.final with
      | true => rw [hlast hf]; simpa [answersFrom] using ht
      | false => simpa [nAns_snoc, t, h0] using hnext hf
    · have := hnext (by simp [Reply.final, t])
      rw [nAns_snoc, if_pos t] at this
      simp only [t, if_true]
      refine ⟨trivial, ?_⟩
      simpa using this
    · have hf : r.final = true := by simp [Reply.final, t]
      simp only [t]
      rw [hlast hf]
      simpa [answersFrom] using ht

theorem ansNumbering_expected (hdr : List Byte) (L : List Entry) (h : ∀ e ∈ L, Shape e.replies) :
    ansNumbering 0 none (expected hdr L) := by
  induction L with
  | nil => trivial
  | cons e L ih =>
    have ih := ih (fun x hx => h x (by simp [hx]))
    have hs := h e (by simp)
    rw [expected]
    split
    · rename_i hc
      have := ansNumbering_entry hdr e.msgno _ ih e.replies [] false (by simpa using hs) (by simp) (Or.inl hc)
      simpa [nAns, Entry.answers] using this
    · have := ansNumbering_entry hdr e.msgno [] trivial e.replies [] false (by simpa using hs) (by simp) (Or.inr rfl)
      simpa [nAns, Entry.answers] using this

theorem inv_ansNumbering {hdr b s} (hi : Inv hdr b s) : ansNumbering 0 none (s.queue.map obs) := by
  obtain ⟨ys, hp⟩ := (inv_queue hi).1
  apply ansNumbering_prefix (ys := ys)
  rw [hp]
  apply ansNumbering_expected
  obtain ⟨D, P, hb, hh⟩ := hi
  rw [hb.hL]
  intro e he
  rcases List.mem_append.1 he with h | h
  · exact hb.shapeD e h
  · exact hb.shape e h

end Verif.Proof
