import Verif.Proof.Stream
import Verif.Props.Frame
import Verif.Spec.Records
/-!
# C102: frames are read through transports that work with records
-/
namespace Verif.Props
open Verif.Model Verif.Spec Verif.Proof

/-! ## The loop without flags -/

def aux_rt_W {σ : Type} (envOf : σ → ReadEnv) (handle : σ → Frame → Option σ) : Nat → σ → ReadState → List Tok → List Frame × σ × Final × List Tok
  | 0, s0, st, l => ([], s0, .idle st, l)
  | calls + 1, s0, st, l =>
    if skipCuts l = [] then ([], s0, .idle st, l)
    else
      match getNext (envOf s0) st l with
      | (.frame f st', r) =>
        match handle s0 f with
        | none => ([f], s0, .shutdown, r)
        | some s1 => (f :: (aux_rt_W envOf handle calls s1 st' r).1, (aux_rt_W envOf handle calls s1 st' r).2)
      | (.pending st', r) => aux_rt_W envOf handle calls s0 st' r
      | (.shutdown, r) => ([], s0, .shutdown, r)
      | (.outsideLine, r) => ([], s0, .undefined, r)
      | (.outsideBuffer, r) => ([], s0, .undefined, r)

theorem aux_rt_left (l : List Tok) (h : 0 < recordLeft l) : ∃ b r, l = .byte b :: r := by
  cases l with
  | nil => simp [recordLeft] at h
  | cons t r => cases t <;> simp [recordLeft] at h ⊢

theorem aux_rt_held (b a : List Tok) (h : 0 < heldAfter b a) : ∃ x r, a = .byte x :: r := by
  unfold heldAfter at h
  split at h
  · exact aux_rt_left _ h
  · simp at h

theorem aux_rt_same {σ : Type} (envOf : σ → ReadEnv) (handle : σ → Frame → Option σ) (n : Nat) (again : Bool) (held : Nat) (s0 : σ)
    (st : ReadState) (l : List Tok) (h : (again = false ∧ held = 0) ∨ (again = true ∧ ∃ b r, l = .byte b :: r)) :
    recDrive envOf handle n again held s0 st l = aux_rt_W envOf handle n s0 st l := by
  induction n generalizing again held s0 st l with
  | zero => rfl
  | succ n ih =>
    have key : ∀ r, (decide (heldAfter l r > 0) = false ∧ heldAfter l r = 0) ∨ (decide (heldAfter l r > 0) = true ∧ ∃ b r', r = .byte b :: r') := by
      intro r
      by_cases e : heldAfter l r > 0
      · exact .inr ⟨by simpa using e, aux_rt_held _ _ e⟩
      · exact .inl ⟨by simpa using e, by omega⟩
    have c : (again = false ∧ sockReadable held l = false) ↔ skipCuts l = [] := by
      rcases h with ⟨rfl, rfl⟩ | ⟨rfl, b, r, rfl⟩
      · simp [sockReadable]
      · simp [skipCuts]
    rw [recDrive, aux_rt_W]
    by_cases e : skipCuts l = []
    · rw [if_pos e, if_pos (c.2 e)]
    · rw [if_neg e, if_neg (fun x => e (c.1 x))]
      generalize getNext (envOf s0) st l = p
      obtain ⟨nx, r⟩ := p
      cases nx with
      | frame f st' =>
        simp only
        cases handle s0 f with
        | none => rfl
        | some s1 => simp only [ih _ _ s1 st' r (key r)]
      | pending st' => simp only [ih _ _ s0 st' r (key r)]
      | shutdown => rfl
      | outsideLine => rfl
      | outsideBuffer => rfl

/-! ## Every call takes something -/

theorem aux_rt_take_le (n : Nat) (l : List Tok) : (takeBytes n l).2.length ≤ l.length := by
  induction n generalizing l with
  | zero => unfold takeBytes; exact Nat.le_refl _
  | succ n ih =>
    cases l with
    | nil => simp [takeBytes]
    | cons t r =>
      cases t <;> simp only [takeBytes, List.length_cons, Nat.le_refl]
      have := ih r; omega

theorem aux_rt_recv_lt (n : Nat) (hn : 0 < n) (l : List Tok) (h : l ≠ []) (he : (recv n l).1 ≠ .eof) : (recv n l).2.length < l.length := by
  induction l with
  | nil => simp at h
  | cons t r ih =>
    cases t with
    | byte b =>
      obtain ⟨m, rfl⟩ : ∃ m, n = m + 1 := ⟨n - 1, by omega⟩
      simp only [recv, takeBytes, List.length_cons]
      have := aux_rt_take_le m r; omega
    | cut =>
      simp only [recv] at he ⊢
      cases r with
      | nil => simp [recv]
      | cons t' r' => have := ih (by simp) he; simp only [List.length_cons] at this ⊢; omega
    | again => simp [recv]
    | eof => simp [recv] at he

theorem aux_rt_line_lt (fuel : Nat) (hf : 0 < fuel) (first : Bool) (acc : List Byte) (l : List Tok) (h : l ≠ [])
    (he : (readlineLoop fuel first acc l).1 ≠ .eof) (hi : (readlineLoop fuel first acc l).1 ≠ .incomplete) :
    (readlineLoop fuel first acc l).2.length < l.length := by
  obtain ⟨k, rfl⟩ : ∃ k, fuel = k + 1 := ⟨fuel - 1, by omega⟩
  clear hf
  induction l generalizing k first acc with
  | nil => simp at h
  | cons t r ih =>
    cases t with
    | byte b =>
      by_cases e : b = LF
      · simp [readlineLoop, e]
      · simp only [readlineLoop, if_neg e] at he hi ⊢
        cases k with
        | zero => simp [readlineLoop] at hi
        | succ k =>
          cases r with
          | nil => simp [readlineLoop]
          | cons t' r' => have := ih false (acc ++ [b]) (by simp) k he hi; simp only [List.length_cons] at this ⊢; omega
    | cut =>
      simp only [readlineLoop] at he hi ⊢
      cases r with
      | nil => simp [readlineLoop]
      | cons t' r' => have := ih first acc (by simp) k he hi; simp only [List.length_cons] at this ⊢; omega
    | again => simp [readlineLoop]
    | eof => cases first <;> simp [readlineLoop] at he hi

def aux_rt_open : Next → Bool
  | .frame _ _ => true
  | .pending _ => true
  | _ => false

theorem aux_rt_payload_le (f : Frame) (st : ReadState) (l : List Tok) (h : aux_rt_open (readPayload f st l).1 = true) :
    (readPayload f st l).2.length ≤ l.length := by
  unfold readPayload at h ⊢
  split
  · simp
  · split
    · simp
    · next h1 h2 =>
      rw [if_neg h1, if_neg h2] at h
      simp only at h ⊢
      by_cases hl : l = []
      · subst hl; simp [recv]
      · have := aux_rt_recv_lt (f.size.toNat + 5) (by omega) l hl
        generalize recv (f.size.toNat + 5) l = q at this h ⊢
        obtain ⟨a, b⟩ := q
        cases a with
        | eof => simp [aux_rt_open] at h
        | again => simp at this ⊢; omega
        | data bs =>
          simp at this ⊢
          split <;> simp <;> omega

theorem aux_rt_get_lt (env : ReadEnv) (st : ReadState) (hst : ∀ f g r, st.partialFrame = some (f, g, r) → 0 < r) (hd : (st.pendingLine.getD []).length < 98)
    (l : List Tok) (h : l ≠ []) (ho : aux_rt_open (getNext env st l).1 = true) : (getNext env st l).2.length < l.length := by
  unfold getNext at ho ⊢
  cases hp : st.partialFrame with
  | some x =>
    obtain ⟨f, g, rem⟩ := x
    rw [hp] at ho
    simp only at ho ⊢
    have := aux_rt_recv_lt rem (hst f g rem hp) l h
    generalize recv rem l = q at this ho ⊢
    obtain ⟨a, b⟩ := q
    cases a with
    | eof => simp [aux_rt_open] at ho
    | again => simp [aux_rt_open] at ho
    | data bs => simp at this ⊢; split <;> simpa using this
  | none =>
    rw [hp] at ho
    simp only at ho ⊢
    rw [if_neg (by omega)] at ho ⊢
    have := aux_rt_line_lt (98 - (st.pendingLine.getD []).length) (by omega) true (st.pendingLine.getD []) l h
    generalize readlineLoop (98 - (st.pendingLine.getD []).length) true (st.pendingLine.getD []) l = q at this ho ⊢
    obtain ⟨a, b⟩ := q
    cases a with
    | eof => simp [aux_rt_open] at ho
    | incomplete => simp [aux_rt_open] at ho
    | again got => simp at this ⊢; split <;> simpa using this
    | complete line =>
      simp at this
      simp only at ho ⊢
      generalize checkHeader env line _ = c at ho ⊢
      cases c with
      | inl nx => simpa using this
      | inr f => exact Nat.lt_of_le_of_lt (aux_rt_payload_le f _ b ho) this

def aux_rt_ok (st : ReadState) : Prop := (∀ f g r, st.partialFrame = some (f, g, r) → 0 < r) ∧ (st.pendingLine.getD []).length < 98

def aux_rt_next (P : ReadState → Prop) : Next → Prop
  | .frame _ st => P st
  | .pending st => P st
  | _ => True

theorem aux_rt_take_n (n : Nat) (l : List Tok) : (takeBytes n l).1.length ≤ n := by
  induction n generalizing l with
  | zero => unfold takeBytes; simp
  | succ n ih =>
    cases l with
    | nil => simp [takeBytes]
    | cons t r => cases t <;> simp [takeBytes]; exact ih r

theorem aux_rt_recv_n (n : Nat) (l : List Tok) (bs : List Byte) (h : (recv n l).1 = .data bs) : bs.length ≤ n := by
  induction l with
  | nil => simp [recv] at h
  | cons t r ih =>
    cases t with
    | byte b => simp only [recv, Recv.data.injEq] at h; rw [← h]; exact aux_rt_take_n _ _
    | cut => exact ih h
    | again => simp [recv] at h
    | eof => simp [recv] at h

theorem aux_rt_line_n (fuel : Nat) (first : Bool) (acc : List Byte) (l : List Tok) (g : List Byte)
    (h : (readlineLoop fuel first acc l).1 = .again g) : g.length < acc.length + fuel := by
  induction l generalizing fuel first acc with
  | nil => cases fuel <;> simp [readlineLoop] at h; rw [← h]; omega
  | cons t r ih =>
    cases fuel with
    | zero => simp [readlineLoop] at h
    | succ k =>
      cases t with
      | byte b =>
        by_cases e : b = LF
        · simp [readlineLoop, e] at h
        · simp only [readlineLoop, if_neg e] at h
          have := ih _ _ _ h; simp at this; omega
      | cut => exact ih _ _ _ h
      | again => simp [readlineLoop] at h; rw [← h]; omega
      | eof => cases first <;> simp [readlineLoop] at h

theorem aux_rt_buf (f : Frame) (got : List Byte) (st : ReadState) (h : aux_rt_ok st) : aux_rt_next aux_rt_ok (processBuffer f got st) := by
  unfold processBuffer; split
  · exact h
  · trivial

theorem aux_rt_head (env : ReadEnv) (line : List Byte) (st : ReadState) (ok : aux_rt_ok st) (nx : Next) (h : checkHeader env line st = .inl nx) :
    aux_rt_next aux_rt_ok nx := by
  unfold checkHeader at h
  simp only at h
  repeat' split at h
  all_goals first | (cases h; first | trivial | exact ok) | simp at h

theorem aux_rt_keep (env : ReadEnv) (st : ReadState) (h : aux_rt_ok st) (l : List Tok) : aux_rt_next aux_rt_ok (getNext env st l).1 := by
  obtain ⟨h1, h2⟩ := h
  unfold getNext
  cases hp : st.partialFrame with
  | some x =>
    obtain ⟨f, g, rem⟩ := x
    simp only
    have := aux_rt_recv_n rem l
    generalize recv rem l = q at this ⊢
    obtain ⟨a, b⟩ := q
    cases a with
    | eof => trivial
    | again => trivial
    | data bs =>
      have := this bs rfl
      simp only
      split
      · exact ⟨fun f g r e => by simp at e; omega, h2⟩
      · exact aux_rt_buf _ _ _ ⟨by simp, h2⟩
  | none =>
    simp only
    split
    · trivial
    · have := aux_rt_line_n (98 - (st.pendingLine.getD []).length) true (st.pendingLine.getD []) l
      generalize readlineLoop (98 - (st.pendingLine.getD []).length) true (st.pendingLine.getD []) l = q at this ⊢
      obtain ⟨a, b⟩ := q
      cases a with
      | eof => trivial
      | incomplete => trivial
      | again got =>
        have := this got rfl
        simp only
        split
        · trivial
        · refine ⟨by simp, ?_⟩
          simp only
          split
          · simp
          · have := (List.takeWhile_sublist (fun c => decide (c ≠ NUL)) (l := got)).length_le
            simp only [Option.getD_some]; omega
      | complete line =>
        simp only
        have ok : aux_rt_ok ⟨none, none, 0⟩ := ⟨by simp, by simp⟩
        generalize (⟨none, none, 0⟩ : ReadState) = st1 at ok ⊢
        have rp : ∀ f, aux_rt_next aux_rt_ok (readPayload f st1 b).1 := by
          intro f
          unfold readPayload
          split
          · exact ok
          · split
            · trivial
            · next h3 =>
              simp only
              have := aux_rt_recv_n (f.size.toNat + 5) b
              generalize recv (f.size.toNat + 5) b = q at this ⊢
              obtain ⟨a, b⟩ := q
              cases a with
              | eof => trivial
              | again => exact ⟨fun f g r e => by simp at e; omega, ok.2⟩
              | data bs =>
                have := this bs rfl
                simp only
                split
                · exact aux_rt_buf _ _ _ ok
                · exact ⟨fun f g r e => by simp at e; omega, ok.2⟩
        cases hc : checkHeader env line st1 with
        | inl nx => exact aux_rt_head env line st1 ok nx hc
        | inr f => exact rp f

theorem aux_rt_skip (l : List Tok) (h : skipCuts l = []) : octets l = [] ∧ .eof ∉ l := by
  induction l with
  | nil => simp [octets]
  | cons t r ih => cases t <;> simp [skipCuts] at h; have := ih h; simp [octets, this]

/-- When the reader waits, nothing that has arrived is left unread, in the socket or in the transport. -/
theorem C102_no_stall {σ : Type} (envOf : σ → ReadEnv) (handle : σ → Frame → Option σ) (s0 : σ) (script : List Tok) (n : Nat)
    (hn : script.length ≤ n) (frames : List Frame) (s' : σ) (st : ReadState) (unread : List Tok)
    (h : recDrive envOf handle n false 0 s0 ReadState.init script = (frames, s', .idle st, unread)) : octets unread = [] ∧ .eof ∉ unread := by
  rw [aux_rt_same _ _ _ _ _ _ _ _ (.inl ⟨rfl, rfl⟩)] at h
  have gen : ∀ n st0 s0 l frames, aux_rt_ok st0 → l.length ≤ n → aux_rt_W envOf handle n s0 st0 l = (frames, s', .idle st, unread) →
      octets unread = [] ∧ .eof ∉ unread := by
    intro n
    induction n with
    | zero =>
      intro st0 s0 l frames _ hl h
      have : l = [] := List.eq_nil_of_length_eq_zero (by omega)
      simp only [aux_rt_W, Prod.mk.injEq] at h
      rw [← h.2.2.2, this]; simp [octets]
    | succ n ih =>
      intro st0 s0 l frames ok hl h
      rw [aux_rt_W] at h
      by_cases e : skipCuts l = []
      · rw [if_pos e] at h
        simp only [Prod.mk.injEq] at h
        rw [← h.2.2.2]; exact aux_rt_skip l e
      · rw [if_neg e] at h
        have lne : l ≠ [] := by rintro rfl; simp [skipCuts] at e
        have lt := aux_rt_get_lt (envOf s0) st0 ok.1 ok.2 l lne
        have kp := aux_rt_keep (envOf s0) st0 ok l
        generalize getNext (envOf s0) st0 l = p at h lt kp
        obtain ⟨nx, r⟩ := p
        cases nx with
        | frame f st' =>
          simp only at h
          have := lt rfl
          cases hh : handle s0 f with
          | none => rw [hh] at h; simp at h
          | some s1 =>
            rw [hh] at h
            simp only [Prod.mk.injEq] at h
            exact ih st' s1 r _ kp (by simp only at this; omega) (Prod.ext rfl h.2)
        | pending st' =>
          have := lt rfl
          exact ih st' s0 r _ kp (by simp only at this; omega) h
        | shutdown => simp at h
        | outsideLine => simp at h
        | outsideBuffer => simp at h
  exact gen n _ s0 script frames ⟨by simp [ReadState.init], by simp [ReadState.init]⟩ hn h

/-! ## Delivery -/

def aux_rt_cons {σ : Type} (f : Frame) (x : List Frame × σ × Final × List Tok) : List Frame × σ × Final × List Tok := (f :: x.1, x.2)

theorem aux_rt_take (t0 X : List Tok) (x : Byte) :
    takeBytes ((octets t0).length + 1) (t0 ++ .byte x :: X) = (octets t0 ++ [x], X) ∨
    ∃ ds t1, takeBytes ((octets t0).length + 1) (t0 ++ .byte x :: X) = (ds, t1 ++ .byte x :: X) ∧ ds ++ octets t1 = octets t0 ∧
      t1.length ≤ t0.length ∧ blocks t1 ≤ blocks t0 ∧ (.eof ∉ t0 → .eof ∉ t1) := by
  induction t0 with
  | nil => left; simp [octets, takeBytes]
  | cons t t0 ih =>
    cases t with
    | byte b =>
      simp only [octets, List.length_cons, List.cons_append, takeBytes, blocks]
      rcases ih with ih | ⟨ds, t1, ih, h1, h2, h3, h4⟩
      · left; rw [ih]
      · right; rw [ih]; exact ⟨b :: ds, t1, rfl, by simp [h1], by omega, h3, by simpa using h4⟩
    | cut => right; exact ⟨[], .cut :: t0, rfl, rfl, Nat.le_refl _, Nat.le_refl _, id⟩
    | again => right; exact ⟨[], .again :: t0, rfl, rfl, Nat.le_refl _, Nat.le_refl _, id⟩
    | eof => right; exact ⟨[], .eof :: t0, rfl, rfl, Nat.le_refl _, Nat.le_refl _, id⟩

theorem aux_rt_recv (t0 X : List Tok) (x : Byte) (he : .eof ∉ t0) :
    (∃ t1, recv ((octets t0).length + 1) (t0 ++ .byte x :: X) = (.again, t1 ++ .byte x :: X) ∧ octets t1 = octets t0 ∧
      t1.length < t0.length ∧ blocks t1 + 1 ≤ blocks t0 ∧ .eof ∉ t1) ∨
    recv ((octets t0).length + 1) (t0 ++ .byte x :: X) = (.data (octets t0 ++ [x]), X) ∨
    ∃ ds t1, recv ((octets t0).length + 1) (t0 ++ .byte x :: X) = (.data ds, t1 ++ .byte x :: X) ∧ ds ++ octets t1 = octets t0 ∧ ds ≠ [] ∧
      t1.length < t0.length ∧ blocks t1 ≤ lateBlocks t0 ∧ .eof ∉ t1 := by
  induction t0 with
  | nil => right; left; simp [octets, recv, takeBytes]
  | cons t t0 ih =>
    simp only [List.mem_cons, not_or] at he
    cases t with
    | byte b =>
      simp only [octets, List.length_cons, List.cons_append, recv, takeBytes, lateBlocks]
      rcases aux_rt_take t0 X x with ih | ⟨ds, t1, ih, h1, h2, h3, h4⟩
      · right; left; rw [ih]
      · right; right; rw [ih]; exact ⟨b :: ds, t1, rfl, by simp [h1], by simp, by omega, h3, h4 he.2⟩
    | cut =>
      simp only [octets, List.length_cons, List.cons_append, recv, lateBlocks, blocks]
      rcases ih he.2 with ⟨t1, ih, h1, h2, h3, h4⟩ | ih | ⟨ds, t1, ih, h1, h2, h3, h4, h5⟩
      · exact .inl ⟨t1, ih, h1, by omega, h3, h4⟩
      · exact .inr (.inl ih)
      · exact .inr (.inr ⟨ds, t1, ih, h1, h2, by omega, h4, h5⟩)
    | again => left; exact ⟨t0, rfl, rfl, by simp, by simp [blocks], he.2⟩
    | eof => exact absurd rfl he.1

theorem aux_rt_late (t : List Tok) : lateBlocks t ≤ blocks t := by
  induction t with
  | nil => simp [lateBlocks]
  | cons t r ih => cases t <;> simp [lateBlocks, blocks] <;> omega

theorem aux_rt_go (t0 X : List Tok) (x : Byte) : skipCuts (t0 ++ .byte x :: X) ≠ [] := by
  induction t0 with
  | nil => simp [skipCuts]
  | cons t r ih => cases t <;> simp [skipCuts]; exact ih

theorem aux_rt_body {σ : Type} (envOf : σ → ReadEnv) (handle : σ → Frame → Option σ) (s0 s1 : σ) (f : Frame) (hL : Legal f)
    (ht : f.type ≠ .seq) (hh : handle s0 f = some s1) (X : List Tok) (k n : Nat) (t0 : List Tok) (he : .eof ∉ t0) (x : Byte) (got : List Byte)
    (ho : got ++ octets t0 ++ [x] = bodyOf f) (hn : t0.length + 1 + k ≤ n) :
    (∃ n', k ≤ n' ∧ aux_rt_W envOf handle n s0 ⟨none, some (Frame.hdr f, got, (octets t0).length + 1), 0⟩ (t0 ++ .byte x :: X) =
      aux_rt_cons f (aux_rt_W envOf handle n' s1 ReadState.init X)) ∨
    (0 < blocks t0 ∧ ∃ u, aux_rt_W envOf handle n s0 ⟨none, some (Frame.hdr f, got, (octets t0).length + 1), 0⟩ (t0 ++ .byte x :: X) =
      ([], s0, .shutdown, u)) := by
  induction n generalizing t0 got with
  | zero => omega
  | succ n ih =>
    rw [aux_rt_W, if_neg (aux_rt_go t0 X x)]
    simp only [getNext]
    rcases aux_rt_recv t0 X x he with ⟨t1, e, h1, h2, h3, h4⟩ | e | ⟨ds, t1, e, h1, h2, h3, h4, h5⟩
    · rw [e]; exact .inr ⟨by omega, _, rfl⟩
    · rw [e]
      simp only
      rw [if_neg (by simp), ← List.append_assoc, ho, processBuffer_ok f hL ht]
      simp only [hh]
      exact .inl ⟨n, by omega, rfl⟩
    · rw [e]
      have hl : ds.length + (octets t1).length = (octets t0).length := by rw [← h1]; simp
      simp only
      rw [if_pos (by omega)]
      have er : (octets t0).length + 1 - ds.length = (octets t1).length + 1 := by omega
      simp only [er]
      rcases ih t1 h5 (got ++ ds) (by rw [← ho, ← h1]; simp) (by omega) with h | ⟨h, h'⟩
      · exact .inl h
      · have := aux_rt_late t0
        exact .inr ⟨by omega, h'⟩

theorem aux_rt_line (hs X : List Tok) (he : .eof ∉ hs) (hl : LF ∉ octets hs) (fuel : Nat) (hf : (octets hs).length + 1 ≤ fuel) (first : Bool)
    (acc : List Byte) :
    readlineLoop fuel first acc (hs ++ .byte LF :: X) = (.complete (acc ++ octets hs ++ [LF]), X) ∨
    ∃ a t1, readlineLoop fuel first acc (hs ++ .byte LF :: X) = (.again (acc ++ a), t1 ++ .byte LF :: X) ∧ a ++ octets t1 = octets hs ∧
      t1.length < hs.length ∧ blocks t1 + 1 ≤ blocks hs ∧ .eof ∉ t1 := by
  induction hs generalizing fuel first acc with
  | nil =>
    obtain ⟨k, rfl⟩ : ∃ k, fuel = k + 1 := ⟨fuel - 1, by simp [octets] at hf; omega⟩
    left; simp [readlineLoop, octets]
  | cons t hs ih =>
    obtain ⟨k, rfl⟩ : ∃ k, fuel = k + 1 := ⟨fuel - 1, by omega⟩
    simp only [List.mem_cons, not_or] at he
    cases t with
    | byte b =>
      simp only [octets, List.mem_cons, not_or, List.length_cons] at hl hf
      simp only [List.cons_append, readlineLoop, if_neg (fun e => hl.1 (Eq.symm e)), octets, blocks]
      rcases ih he.2 hl.2 k (by omega) false (acc ++ [b]) with h | ⟨a, t1, h, h1, h2, h3, h4⟩
      · left; rw [h]; simp
      · right; exact ⟨b :: a, t1, by rw [h]; simp, by simp [h1], by simp; omega, h3, h4⟩
    | cut =>
      simp only [List.cons_append, readlineLoop, octets, blocks]
      rcases ih he.2 hl (k + 1) hf first acc with h | ⟨a, t1, h, h1, h2, h3, h4⟩
      · exact .inl h
      · exact .inr ⟨a, t1, h, h1, by simp; omega, h3, h4⟩
    | again => right; exact ⟨[], hs, by simp [readlineLoop], rfl, by simp, by simp [blocks], he.2⟩
    | eof => exact absurd rfl he.1

/-- What happens once the header line is there. -/
def aux_rt_after {σ : Type} (envOf : σ → ReadEnv) (handle : σ → Frame → Option σ) (n : Nat) (s0 : σ) (p : Next × List Tok) :
    List Frame × σ × Final × List Tok :=
  match p with
  | (.frame f st', r) =>
    match handle s0 f with
    | none => ([f], s0, .shutdown, r)
    | some s1 => (f :: (aux_rt_W envOf handle n s1 st' r).1, (aux_rt_W envOf handle n s1 st' r).2)
  | (.pending st', r) => aux_rt_W envOf handle n s0 st' r
  | (.shutdown, r) => ([], s0, .shutdown, r)
  | (.outsideLine, r) => ([], s0, .undefined, r)
  | (.outsideBuffer, r) => ([], s0, .undefined, r)

theorem aux_rt_header {σ : Type} (envOf : σ → ReadEnv) (handle : σ → Frame → Option σ) (s0 : σ) (header : List Byte) (hline : HeaderLine header)
    (X : List Tok) (k n : Nat) (hs : List Tok) (he : .eof ∉ hs) (l1 : List Byte) (ho : l1 ++ octets hs ++ [LF] = header) (ops : Nat)
    (hn : hs.length + 1 + k ≤ n) :
    (∃ n', k ≤ n' ∧ aux_rt_W envOf handle n s0 ⟨if l1 = [] then none else some l1, none, ops⟩ (hs ++ .byte LF :: X) =
      aux_rt_after envOf handle n' s0 (match checkHeader (envOf s0) header ReadState.init with
        | .inl nx => (nx, X)
        | .inr f => readPayload f ReadState.init X)) ∨
    (25 < ops + blocks hs ∧ ∃ u, aux_rt_W envOf handle n s0 ⟨if l1 = [] then none else some l1, none, ops⟩ (hs ++ .byte LF :: X) =
      ([], s0, .shutdown, u)) := by
  obtain ⟨h0, e0, hlf, hnul⟩ := hline.shape
  have hshort := hline.short
  induction n generalizing hs l1 ops with
  | zero => omega
  | succ n ih =>
    rw [aux_rt_W, if_neg (aux_rt_go hs X LF)]
    have hpre : l1 ++ octets hs = h0 ++ [CR] := by
      rw [e0] at ho; exact (List.append_inj' ho rfl).1
    have hpend : (if l1 = [] then none else some l1 : Option (List Byte)).getD [] = l1 := by by_cases h : l1 = [] <;> simp [h]
    have hlen : l1.length + (octets hs).length + 1 = header.length := by rw [← ho]; simp; omega
    have hclean : ∀ c ∈ l1 ++ octets hs, c ≠ LF ∧ c ≠ NUL := by
      intro c hc
      rw [hpre] at hc
      simp only [List.mem_append, List.mem_singleton] at hc
      rcases hc with hc | hc
      · exact ⟨fun e => hlf (e ▸ hc), fun e => hnul (e ▸ hc)⟩
      · subst hc; decide
    simp only [getNext, hpend]
    rw [if_neg (by omega)]
    rcases aux_rt_line hs X he (fun h => (hclean LF (by simp [h])).1 rfl) (98 - l1.length) (by omega) true l1 with e | ⟨a, t1, e, h1, h2, h3, h4⟩
    · rw [e, ho]
      exact .inl ⟨n, by omega, rfl⟩
    · rw [e]
      simp only
      have htw : (l1 ++ a).takeWhile (fun c => decide (c ≠ NUL)) = l1 ++ a :=
        takeWhile_all _ _ (fun c hc => by
          have := (hclean c (by rw [← h1]; simp only [List.mem_append] at hc ⊢; rcases hc with h | h <;> simp [h])).2
          simpa using this)
      rw [htw]
      by_cases hops : ops + 1 > 25
      · rw [if_pos hops]; exact .inr ⟨by omega, _, rfl⟩
      · rw [if_neg hops]
        simp only
        rcases ih t1 h4 (l1 ++ a) (by rw [← ho, ← h1]; simp) (ops + 1) (by omega) with h | ⟨h, h'⟩
        · exact .inl h
        · exact .inr ⟨by omega, h'⟩

/-- One frame. -/
theorem aux_rt_frame {σ : Type} (envOf : σ → ReadEnv) (handle : σ → Frame → Option σ) (s0 s1 : σ) (f : Frame) (hL : Legal f) (hS : SeqOk f)
    (header : List Byte) (hhd : headerOf f = some header) (hch : (envOf s0).channelExists f.channel = true)
    (hsq : f.type ≠ .seq → (envOf s0).seqnoOk f.channel f.seqno f.size = true) (hh : handle s0 f = some s1) (hs bs rest : List Tok)
    (he : .eof ∉ hs ++ bs) (hd : octets hs ++ [LF] = header) (hb : octets bs = bodyOf f)
    (hlast : ∀ t, bs.getLast? = some t → ∃ b, t = .byte b) (k n : Nat) (hn : hs.length + 1 + bs.length + k ≤ n) :
    (∃ n', k ≤ n' ∧ aux_rt_W envOf handle n s0 ReadState.init (hs ++ .byte LF :: bs ++ rest) =
      aux_rt_cons f (aux_rt_W envOf handle n' s1 ReadState.init rest)) ∨
    ((25 < blocks hs ∨ 1 < blocks bs ∨ 0 < lateBlocks bs) ∧ ∃ u, aux_rt_W envOf handle n s0 ReadState.init (hs ++ .byte LF :: bs ++ rest) =
      ([], s0, .shutdown, u)) := by
  simp only [List.mem_append, not_or] at he
  have hline := headerOf_line f hL header hhd
  rcases aux_rt_header envOf handle s0 header hline (bs ++ rest) (bs.length + k) n hs he.1 [] (by simpa using hd) 0 (by omega) with
    ⟨n', h1, h2⟩ | ⟨h1, h2⟩
  · simp only [if_true] at h2
    rw [show (⟨none, none, 0⟩ : ReadState) = ReadState.init from rfl] at h2
    rw [List.append_assoc, List.cons_append, h2]
    by_cases ht : f.type = .seq
    · rw [checkHeader_seq _ _ f hL hS ht header hhd hch]
      have hb0 : bs = [] := by
        cases hg : bs.getLast? with
        | none => simpa using hg
        | some t =>
          obtain ⟨b, rfl⟩ := hlast t hg
          obtain ⟨bs', rfl⟩ := List.getLast?_eq_some_iff.1 hg
          rw [octets_append] at hb
          simp [octets, bodyOf, ht] at hb
      subst hb0
      simp only [aux_rt_after, hh, List.nil_append]
      exact .inl ⟨n', by simpa using h1, rfl⟩
    · rw [checkHeader_data _ _ f hL ht header hhd hch (hsq ht)]
      have hbl := bodyOf_length f hL ht
      obtain ⟨t0, x, rfl⟩ : ∃ t0 x, bs = t0 ++ [.byte x] := by
        cases hg : bs.getLast? with
        | none =>
          have : bs = [] := by simpa using hg
          rw [this] at hb; rw [← hb] at hbl; simp [octets] at hbl
        | some t =>
          obtain ⟨b, rfl⟩ := hlast t hg
          obtain ⟨bs', e⟩ := List.getLast?_eq_some_iff.1 hg
          exact ⟨bs', b, e⟩
      have ho : octets t0 ++ [x] = bodyOf f := by rw [← hb, octets_append]; rfl
      have hsz := hL.size
      have hlt : (octets t0).length + 1 = f.size.toNat + 5 := by rw [← hbl, ← ho]; simp
      have hbk : blocks (t0 ++ [.byte x]) = blocks t0 := by rw [blocks_append]; rfl
      have hlk : blocks t0 = 0 → lateBlocks (t0 ++ [.byte x]) = 0 := by
        intro h; have := aux_rt_late (t0 ++ [.byte x]); omega
      have hll : lateBlocks t0 ≤ lateBlocks (t0 ++ [.byte x]) := by
        clear hbl ho hlt hbk hlk hb hlast hn h1 h2 he
        induction t0 with
        | nil => simp [lateBlocks]
        | cons t r ih =>
          cases t <;> simp only [List.cons_append, lateBlocks]
          · rw [blocks_append]; omega
          all_goals exact ih
      have he0 : .eof ∉ t0 := fun h => he.2 (by simp [h])
      rw [List.append_assoc]
      simp only [List.length_append, List.length_cons, List.length_nil] at h1
      unfold readPayload
      have hsize : (Frame.hdr f).size = f.size := rfl
      simp only [hsize]
      rw [if_neg (by omega), if_neg (by omega), ← hlt]
      simp only [List.cons_append, List.nil_append]
      rcases aux_rt_recv t0 rest x he0 with ⟨t1, e, g1, g2, g3, g4⟩ | e | ⟨ds, t1, e, g1, g2, g3, g4, g5⟩
      · rw [e]
        simp only [aux_rt_after, ← g1]
        rcases aux_rt_body envOf handle s0 s1 f hL ht hh rest k n' t1 g4 x [] (by rw [g1]; simpa using ho) (by omega) with h | ⟨h, h'⟩
        · exact .inl h
        · exact .inr ⟨.inr (.inl (by omega)), h'⟩
      · rw [e]
        simp only
        rw [if_pos (by simp), ho, processBuffer_ok f hL ht]
        simp only [aux_rt_after, hh]
        exact .inl ⟨n', by omega, rfl⟩
      · rw [e]
        have hl : ds.length + (octets t1).length = (octets t0).length := by rw [← g1]; simp
        simp only
        rw [if_neg (by omega), show (octets t0).length + 1 - ds.length = (octets t1).length + 1 by omega]
        simp only [aux_rt_after]
        rcases aux_rt_body envOf handle s0 s1 f hL ht hh rest k n' t1 g5 x ds (by rw [← ho, ← g1]) (by omega) with h | ⟨h, h'⟩
        · exact .inl h
        · exact .inr ⟨.inr (.inr (by omega)), h'⟩
  · simp only [if_true] at h2
    rw [List.append_assoc, List.cons_append]
    exact .inr ⟨.inl (by omega), h2⟩

theorem aux_rt_junk_line (k : Nat) (first : Bool) (j : List Tok) (hj : ∀ t ∈ j, t = .cut ∨ t = .again) (h : skipCuts j ≠ []) :
    ∃ r, readlineLoop (k + 1) first [] j = (.again [], r) ∧ (∀ t ∈ r, t = .cut ∨ t = .again) ∧ blocks r + 1 = blocks j ∧ r.length < j.length := by
  induction j with
  | nil => simp [skipCuts] at h
  | cons t j ih =>
    rcases hj t (by simp) with rfl | rfl
    · obtain ⟨r, h1, h2, h3, h4⟩ := ih (fun t ht => hj t (by simp [ht])) h
      exact ⟨r, h1, h2, h3, by simp; omega⟩
    · exact ⟨j, rfl, fun t ht => hj t (by simp [ht]), by simp [blocks], by simp⟩

theorem aux_rt_junk {σ : Type} (envOf : σ → ReadEnv) (handle : σ → Frame → Option σ) (s0 : σ) (n : Nat) (ops : Nat) (j : List Tok)
    (hj : ∀ t ∈ j, t = .cut ∨ t = .again) :
    (∃ st u, aux_rt_W envOf handle n s0 ⟨none, none, ops⟩ j = ([], s0, .idle st, u)) ∨
    (25 < ops + blocks j ∧ ∃ u, aux_rt_W envOf handle n s0 ⟨none, none, ops⟩ j = ([], s0, .shutdown, u)) := by
  induction n generalizing ops j with
  | zero => exact .inl ⟨_, _, rfl⟩
  | succ n ih =>
    rw [aux_rt_W]
    by_cases e : skipCuts j = []
    · rw [if_pos e]; exact .inl ⟨_, _, rfl⟩
    · rw [if_neg e]
      obtain ⟨r, h1, h2, h3, _⟩ := aux_rt_junk_line 97 true j hj e
      have e98 : 98 - ([] : List Byte).length = 97 + 1 := rfl
      simp only [getNext, Option.getD_none, e98, h1]
      rw [if_neg (by simp)]
      simp only [if_true]
      by_cases hops : ops + 1 > 25
      · rw [if_pos hops]; exact .inr ⟨by omega, _, rfl⟩
      · rw [if_neg hops]
        rcases ih (ops + 1) r h2 with h | ⟨h, h'⟩
        · exact .inl h
        · exact .inr ⟨by omega, h'⟩

/-- All frames are read, however they are put into records, and nothing is left, if records that have not arrived completely are met at
most 25 times up to the end of a header, at most once behind it, and not inside of the rest of a frame. What is missing:
`C102_piece_closes`. -/
theorem C102_delivered_partial {σ : Type} (envOf : σ → ReadEnv) (handle : σ → Frame → Option σ) (frames : List Frame) (script : List Tok)
    (hd : RecDelivers frames script) (hL : ∀ f ∈ frames, Legal f ∧ SeqOk f) (s0 s' : σ) (ha : Accepts envOf handle s0 frames s') (n : Nat)
    (hn : script.length ≤ n) :
    ∃ st unread, recDrive envOf handle n false 0 s0 ReadState.init script = (frames, s', .idle st, unread) ∧ octets unread = [] := by
  suffices H : ∃ st unread, aux_rt_W envOf handle n s0 ReadState.init script = (frames, s', .idle st, unread) by
    obtain ⟨st, u, h⟩ := H
    have h' := h
    rw [← aux_rt_same envOf handle n false 0 s0 _ _ (.inl ⟨rfl, rfl⟩)] at h'
    exact ⟨st, u, h', (C102_no_stall envOf handle s0 script n hn _ _ _ _ h').1⟩
  induction hd generalizing s0 n with
  | nil junk hj hb =>
    have : s0 = s' := ha
    subst this
    rcases aux_rt_junk envOf handle s0 n 0 junk hj with h | ⟨h, _⟩
    · exact h
    · omega
  | cons f fs hs bs rest header hh hd hn' he hb hlast h1 h2 hr ih =>
    obtain ⟨a1, a2, s1, a3, a4⟩ := ha
    obtain ⟨l1, l2⟩ := hL f (by simp)
    simp only [List.length_append, List.length_cons] at hn
    rcases aux_rt_frame envOf handle s0 s1 f l1 l2 header hh a1 a2 a3 hs bs rest he hd hb hlast rest.length n (by omega) with
      ⟨n', g1, g2⟩ | ⟨g, _⟩
    · obtain ⟨st, u, h⟩ := ih (fun g hg => hL g (by simp [hg])) s1 a4 n' g1
      exact ⟨st, u, by rw [g2, h]; rfl⟩
    · omega

theorem aux_rt_split (ts : List Tok) (a : List Byte) (x : Byte) (b : List Byte) (h : octets ts = a ++ x :: b) :
    ∃ t0 t2, ts = t0 ++ .byte x :: t2 ∧ octets t0 = a ∧ octets t2 = b := by
  induction ts generalizing a with
  | nil => simp [octets] at h
  | cons t ts ih =>
    cases t with
    | byte c =>
      cases a with
      | nil => simp only [octets, List.nil_append, List.cons.injEq] at h; exact ⟨[], ts, by simp [h.1], rfl, h.2⟩
      | cons y a =>
        simp only [octets, List.cons_append, List.cons.injEq] at h
        obtain ⟨t0, t2, e, h1, h2⟩ := ih a h.2
        exact ⟨.byte c :: t0, t2, by simp [e], by simp [octets, h1, h.1], h2⟩
    | cut => obtain ⟨t0, t2, e, h1, h2⟩ := ih a h; exact ⟨.cut :: t0, t2, by simp [e], h1, h2⟩
    | again => obtain ⟨t0, t2, e, h1, h2⟩ := ih a h; exact ⟨.again :: t0, t2, by simp [e], h1, h2⟩
    | eof => obtain ⟨t0, t2, e, h1, h2⟩ := ih a h; exact ⟨.eof :: t0, t2, by simp [e], h1, h2⟩

/-- However the frames are put into records, and however these arrive, the frames handed over are the first of the ones sent, and they
are all of them if the connection is not closed. -/
theorem C102_prefix {σ : Type} (envOf : σ → ReadEnv) (handle : σ → Frame → Option σ) (frames : List Frame) (script : List Tok)
    (he : .eof ∉ script) (ho : wire frames = some (octets script)) (hL : ∀ f ∈ frames, Legal f ∧ SeqOk f) (s0 s' : σ)
    (ha : Accepts envOf handle s0 frames s') (n : Nat) (hn : script.length ≤ n) :
    (∃ st unread, recDrive envOf handle n false 0 s0 ReadState.init script = (frames, s', .idle st, unread) ∧ octets unread = []) ∨
    ∃ fs s1 unread, fs <+: frames ∧ recDrive envOf handle n false 0 s0 ReadState.init script = (fs, s1, .shutdown, unread) := by
  suffices H : (∃ st unread, aux_rt_W envOf handle n s0 ReadState.init script = (frames, s', .idle st, unread)) ∨
      ∃ fs s1 unread, fs <+: frames ∧ aux_rt_W envOf handle n s0 ReadState.init script = (fs, s1, .shutdown, unread) by
    rw [← aux_rt_same envOf handle n false 0 s0 _ _ (.inl ⟨rfl, rfl⟩)] at H
    rcases H with ⟨st, u, h⟩ | h
    · exact .inl ⟨st, u, h, (C102_no_stall envOf handle s0 script n hn _ _ _ _ h).1⟩
    · exact .inr h
  induction frames generalizing s0 n script with
  | nil =>
    have : s0 = s' := ha
    subst this
    have hj := octets_nil_junk script he (by simpa [wire] using ho.symm)
    rcases aux_rt_junk envOf handle s0 n 0 script hj with h | ⟨_, u, h⟩
    · exact .inl h
    · exact .inr ⟨[], s0, u, List.prefix_rfl, h⟩
  | cons f fs ih =>
    obtain ⟨header, hhd⟩ : ∃ header, headerOf f = some header := by
      cases h : headerOf f with
      | none => simp [wire, h] at ho
      | some x => exact ⟨x, rfl⟩
    obtain ⟨r, hr⟩ : ∃ r, wire fs = some r := by
      cases h : wire fs with
      | none => simp [wire, h] at ho
      | some x => exact ⟨x, rfl⟩
    simp only [wire, hhd, hr, Option.bind_eq_bind, Option.bind_some, Option.pure_def, Option.some.injEq] at ho
    have ho := ho.symm
    obtain ⟨a1, a2, s1, a3, a4⟩ := ha
    obtain ⟨l1, l2⟩ := hL f (by simp)
    obtain ⟨h0, e0, _, _⟩ := (headerOf_line f l1 header hhd).shape
    obtain ⟨hs, t2, rfl, o1, o2⟩ := aux_rt_split script (h0 ++ [CR]) LF (bodyOf f ++ r) (by rw [ho, e0]; simp)
    obtain ⟨bs, rest, rfl, o3, o4, hlast⟩ : ∃ bs rest, t2 = bs ++ rest ∧ octets bs = bodyOf f ∧ octets rest = r ∧
        ∀ t, bs.getLast? = some t → ∃ b, t = .byte b := by
      rcases List.eq_nil_or_concat (bodyOf f) with hb | ⟨b0, x, hb⟩
      · exact ⟨[], t2, rfl, by rw [hb]; rfl, by rw [o2, hb]; rfl, by simp⟩
      · rw [List.concat_eq_append] at hb
        obtain ⟨t0, t3, rfl, q1, q2⟩ := aux_rt_split t2 b0 x r (by rw [o2, hb]; simp)
        exact ⟨t0 ++ [.byte x], t3, by simp, by rw [octets_append, q1, hb]; rfl, q2, by simp⟩
    simp only [List.mem_append, List.mem_cons, not_or] at he
    simp only [List.length_append, List.length_cons] at hn
    rcases aux_rt_frame envOf handle s0 s1 f l1 l2 header hhd a1 a2 a3 hs bs rest (by simp [he]) (by rw [o1, e0]) o3 hlast rest.length n (by omega) with
      ⟨n', g1, g2⟩ | ⟨_, u, g⟩
    · rw [List.append_assoc, List.cons_append] at g2
      rw [g2]
      rcases ih rest he.2.2.2 (by rw [hr, o4]) (fun g hg => hL g (by simp [hg])) s1 a4 n' g1 with ⟨st, u, h⟩ | ⟨fs', s2, u, hp, h⟩
      · exact .inl ⟨st, u, by rw [h]; rfl⟩
      · exact .inr ⟨f :: fs', s2, u, List.cons_prefix_cons.2 ⟨rfl, hp⟩, by rw [h]; rfl⟩
    · rw [List.append_assoc, List.cons_append] at g
      exact .inr ⟨[], s0, u, List.nil_prefix, g⟩

theorem aux_rt_bytes (l : List Byte) : octets (l.map .byte) = l ∧ blocks (l.map .byte) = 0 ∧ .eof ∉ l.map Tok.byte := by
  induction l with
  | nil => simp [octets, blocks]
  | cons x l ih => simp [octets, blocks, ih]

theorem aux_rt_rep (k : Nat) : octets (List.replicate k .again) = [] ∧ blocks (List.replicate k .again) = k := by
  induction k with
  | zero => simp [octets, blocks]
  | succ k ih => simp [List.replicate_succ, octets, blocks, ih]

theorem aux_rt_lateb (l : List Byte) : lateBlocks (l.map .byte) = 0 := by
  cases l with
  | nil => rfl
  | cons x l => exact (aux_rt_bytes l).2.1

/-- If the peer puts each frame into a record of its own, as libvortex does for frames that fit, all frames are read when each record
arrives in at most 26 pieces. What is missing: more pieces, see C04. -/
theorem C102_frame_per_record_partial {σ : Type} (envOf : σ → ReadEnv) (handle : σ → Frame → Option σ) (sent : List (Frame × Nat))
    (script : List Tok) (hs : framePerRecord sent = some script) (hp : ∀ x ∈ sent, x.2 ≤ 25) (hL : ∀ x ∈ sent, Legal x.1 ∧ SeqOk x.1)
    (s0 s' : σ) (ha : Accepts envOf handle s0 (sent.map (·.1)) s') :
    ∃ st unread, recDrive envOf handle script.length false 0 s0 ReadState.init script = (sent.map (·.1), s', .idle st, unread) ∧
      octets unread = [] := by
  refine C102_delivered_partial envOf handle _ script ?_ (by simpa using fun f n h => hL (f, n) h) s0 s' ha _ (Nat.le_refl _)
  clear ha
  have gen : ∀ (sent : List (Frame × Nat)) (script : List Tok), framePerRecord sent = some script → (∀ x ∈ sent, x.2 ≤ 25) →
      (∀ x ∈ sent, Legal x.1 ∧ SeqOk x.1) → RecDelivers (sent.map (·.1)) script ∧ RecDelivers (sent.map (·.1)) (.cut :: script) := by
    intro sent
    induction sent with
    | nil =>
      intro script h _ _
      simp only [framePerRecord, Option.some.injEq] at h
      subst h
      exact ⟨.nil [] (by simp) (by simp [blocks]), .nil [.cut] (by simp) (by simp [blocks])⟩
    | cons x sent ih =>
      intro script h hp hL
      obtain ⟨f, k⟩ := x
      cases hh : headerOf f with
      | none => simp [framePerRecord, hh] at h
      | some header =>
        cases hm : framePerRecord sent with
        | none => simp [framePerRecord, hm] at h
        | some r =>
          simp only [framePerRecord, hh, hm, Option.bind_eq_bind, Option.bind_some, Option.pure_def, Option.some.injEq] at h
          have ih := (ih r hm (fun x hx => hp x (by simp [hx])) (fun x hx => hL x (by simp [hx]))).2
          obtain ⟨h0, e0, _, _⟩ := (headerOf_line f (hL (f, k) (by simp)).1 header hh).shape
          have hk : k ≤ 25 := hp (f, k) (by simp)
          have e : script = (List.replicate k .again ++ (h0 ++ [CR]).map .byte) ++ .byte LF :: (bodyOf f).map .byte ++ .cut :: r := by
            rw [← h, e0]; simp
          have mk : ∀ pre : List Tok, (∀ t ∈ pre, t = .cut) → RecDelivers (f :: sent.map (·.1))
              ((pre ++ (List.replicate k .again ++ (h0 ++ [CR]).map .byte)) ++ .byte LF :: (bodyOf f).map .byte ++ .cut :: r) := by
            intro pre hpre
            have op : octets pre = [] ∧ blocks pre = 0 ∧ .eof ∉ pre := by
              clear e h ih
              induction pre with
              | nil => simp [octets, blocks]
              | cons t pre ih =>
                have := ih (fun t ht => hpre t (by simp [ht]))
                rw [hpre t (by simp)]
                simp [octets, blocks, this]
            refine .cons f _ _ _ _ header hh ?_ ?_ ?_ (aux_rt_bytes _).1 ?_ ?_ (aux_rt_lateb _) ih
            · rw [octets_append, octets_append, (aux_rt_rep k).1, (aux_rt_bytes _).1, op.1, e0]; simp
            · rw [blocks_append, blocks_append, (aux_rt_rep k).2, (aux_rt_bytes _).2.1, op.2.1]; omega
            · have b1 := (aux_rt_bytes (h0 ++ [CR])).2.2
              have b2 := (aux_rt_bytes (bodyOf f)).2.2
              simp only [List.mem_append, not_or]
              exact ⟨⟨op.2.2, by simp [List.mem_replicate], b1⟩, b2⟩
            · intro t ht
              have := List.mem_of_getLast? ht
              simp only [List.mem_map] at this
              obtain ⟨b, _, rfl⟩ := this
              exact ⟨b, rfl⟩
            · rw [(aux_rt_bytes _).2.1]; omega
          refine ⟨by rw [e]; exact mk [] (by simp), by rw [e]; exact mk [.cut] (by simp)⟩
  exact (gen sent script hs hp hL).1

/-- **Violation**: if the rest of a frame is in a record of its own, and this arrives in two pieces, the connection is closed. -/
theorem C102_piece_closes {σ : Type} (envOf : σ → ReadEnv) (handle : σ → Frame → Option σ) (s0 : σ) (f : Frame) (hL : Legal f)
    (ht : f.type ≠ .seq) (header : List Byte) (hh : headerOf f = some header) (hch : (envOf s0).channelExists f.channel = true)
    (hsq : (envOf s0).seqnoOk f.channel f.seqno f.size = true) (a b : List Byte) (hab : a ++ b = bodyOf f) (ha : a ≠ []) (hb : b ≠ []) :
    ∃ u, recDrive envOf handle ((header ++ a).length + 2 + b.length) false 0 s0 ReadState.init
      ((header ++ a).map .byte ++ .cut :: .again :: b.map .byte) = ([], s0, .shutdown, u) := by
  rw [aux_rt_same _ _ _ _ _ _ _ _ (.inl ⟨rfl, rfl⟩)]
  have hline := headerOf_line f hL header hh
  obtain ⟨h0, e0, _, _⟩ := hline.shape
  have bb := aux_rt_bytes (h0 ++ [CR])
  have e1 : (header ++ a).map Tok.byte ++ .cut :: .again :: b.map .byte =
      (h0 ++ [CR]).map .byte ++ .byte LF :: (a.map .byte ++ .cut :: .again :: b.map .byte) := by rw [e0]; simp
  have hlb : 0 < b.length := List.length_pos_iff.2 hb
  rcases aux_rt_header envOf handle s0 header hline (a.map .byte ++ .cut :: .again :: b.map .byte) 1 ((header ++ a).length + 2 + b.length)
      ((h0 ++ [CR]).map .byte) bb.2.2 [] (by rw [bb.1, e0]; simp) 0 (by rw [e0]; simp; omega) with ⟨n', h1, h2⟩ | ⟨h1, _⟩
  · simp only [if_true] at h2
    rw [show (⟨none, none, 0⟩ : ReadState) = ReadState.init from rfl, checkHeader_data _ _ f hL ht header hh hch hsq] at h2
    rw [e1, h2]
    have hbl := bodyOf_length f hL ht
    have hsz := hL.size
    have hla : a.length + b.length = f.size.toNat + 5 := by rw [← hbl, ← hab]; simp
    have tk : ∀ (a : List Byte) (m : Nat) (r : List Tok), a.length ≤ m → takeBytes m (a.map .byte ++ .cut :: r) = (a, .cut :: r) := by
      intro a
      induction a with
      | nil => intro m r _; cases m <;> rfl
      | cons x a ih =>
        intro m r hm
        obtain ⟨m, rfl⟩ : ∃ k, m = k + 1 := ⟨m - 1, by simp at hm; omega⟩
        simp [takeBytes, ih m r (by simpa using hm)]
    have rc : recv (f.size.toNat + 5) (a.map .byte ++ .cut :: .again :: b.map .byte) = (.data a, .cut :: .again :: b.map .byte) := by
      cases a with
      | nil => exact absurd rfl ha
      | cons x a =>
        have := tk (x :: a) (f.size.toNat + 5) (.again :: b.map .byte) (by omega)
        simp only [List.map_cons, List.cons_append] at this ⊢
        simp only [recv, this]
    unfold readPayload
    have hsize : (Frame.hdr f).size = f.size := rfl
    simp only [hsize]
    rw [if_neg (by omega), if_neg (by omega), rc]
    simp only
    rw [if_neg (by omega)]
    simp only [aux_rt_after]
    obtain ⟨m, rfl⟩ : ∃ k, n' = k + 1 := ⟨n' - 1, by omega⟩
    rw [aux_rt_W, if_neg (by simp [skipCuts])]
    simp only [getNext, recv]
    exact ⟨_, rfl⟩
  · rw [bb.2.1] at h1; omega

/-- **Violation**: what the transport holds when the reader begins to watch the connection (behind the greetings, in the same
record) is not read until something else arrives. -/
theorem C102_left_behind {σ : Type} (envOf : σ → ReadEnv) (handle : σ → Frame → Option σ) (s0 : σ) (record : List Byte) (n : Nat) :
    recDrive envOf handle n false record.length s0 ReadState.init (record.map .byte) = ([], s0, .idle ReadState.init, record.map .byte) := by
  cases n with
  | zero => rfl
  | succ n =>
    have : List.drop record.length (record.map Tok.byte) = [] := by simp
    simp [recDrive, sockReadable, this, skipCuts]

/-- What a user relies on: the frames sent are read, however they are put into records and however these arrive, and also behind the
greetings. -/
def C102_statement : Prop :=
  ∀ (σ : Type) (envOf : σ → ReadEnv) (handle : σ → Frame → Option σ) (frames : List Frame) (script : List Tok) (held : Nat) (s0 s' : σ),
    .eof ∉ script → wire frames = some (octets script) → (∀ f ∈ frames, Legal f ∧ SeqOk f) → Accepts envOf handle s0 frames s' →
    held ≤ recordLeft script → ∃ st unread, recDrive envOf handle script.length false held s0 ReadState.init script = (frames, s', .idle st, unread)

theorem C102_statement_false : ¬ C102_statement := by
  intro h
  have hx := C102_left_behind anyEnv (fun s _ => some s) () (lit "MSG 1 0 . 0 5\r\nhelloEND\r\n") 25
  obtain ⟨st, u, hu⟩ := h Unit anyEnv (fun s _ => some s) [helloFrame] ((lit "MSG 1 0 . 0 5\r\nhelloEND\r\n").map .byte) 25 () () (by decide)
    (by decide +kernel)
    (by
      intro f hf
      simp only [List.mem_singleton] at hf
      subst hf
      exact ⟨⟨by decide, by decide, by decide, by decide, by decide, by decide, by decide⟩, by intro h; exact absurd h (by decide)⟩)
    ⟨rfl, (by intro _; rfl), (), rfl, rfl⟩ (by decide)
  have e25 : (lit "MSG 1 0 . 0 5\r\nhelloEND\r\n").length = 25 := by decide
  rw [List.length_map, e25] at hu
  rw [e25, hu] at hx
  exact absurd (congrArg (·.1) hx) (by simp)

-- two frames, the second one over two records, with incomplete records: the hypotheses are met
example : RecDelivers [helloFrame, { Frame.zero .seq with channel := 1, seqno := 5, size := 4096 }]
    (([.again] ++ (lit "MSG 1 0 . 0 5\r").map .byte) ++ .byte LF :: ([.cut, .again] ++ (lit "helloEND\r\n").map .byte) ++
      (((lit "SEQ 1 5 40").map .byte ++ [.cut, .again, .again] ++ (lit "96\r").map .byte) ++ .byte LF :: [] ++ [.cut])) :=
  .cons _ _ _ _ _ (lit "MSG 1 0 . 0 5\r\n") (by decide +kernel) (by decide +kernel) (by decide) (by decide) (by decide +kernel)
    (by intro t ht; exact ⟨LF, by simpa [lit, LF] using ht.symm⟩) (by decide) (by decide)
    (.cons _ _ _ _ _ (lit "SEQ 1 5 4096\r\n") (by decide +kernel) (by decide +kernel) (by decide) (by decide) (by decide +kernel) (by simp)
      (by decide) (by decide) (.nil [.cut] (by simp) (by decide)))

-- and the frames are delivered
example : (recDrive anyEnv (fun s _ => some s) 100 false 0 () ReadState.init
    (([.again] ++ (lit "MSG 1 0 . 0 5\r").map .byte) ++ .byte LF :: ([.cut, .again] ++ (lit "helloEND\r\n").map .byte) ++
      (((lit "SEQ 1 5 40").map .byte ++ [.cut, .again, .again] ++ (lit "96\r").map .byte) ++ .byte LF :: [] ++ [.cut]))).1 =
    [helloFrame, { Frame.zero .seq with channel := 1, seqno := 5, size := 4096 }] := by decide +kernel

-- one frame per record, each in some pieces; two frames in one record
example : ∃ script, framePerRecord [(helloFrame, 3), (helloFrame, 0)] = some script := Option.isSome_iff_exists.1 (by decide +kernel)
example : (recDrive anyEnv (fun s _ => some s) 60 false 0 () ReadState.init
    ((lit "MSG 1 0 . 0 5\r\nhelloEND\r\nMSG 1 0 . 0 5\r\nhelloEND\r\n").map .byte)).1 = [helloFrame, helloFrame] := by decide +kernel

-- the violation for a concrete frame
example : (recDrive anyEnv (fun s _ => some s) 60 false 0 () ReadState.init
    ((lit "MSG 1 0 . 0 5\r\nhel").map .byte ++ .cut :: .again :: (lit "loEND\r\n").map .byte)) =
      ([], (), .shutdown, (lit "loEND\r\n").map .byte) := by decide +kernel

/-! ## The functions for TLS -/

/-- A call that is not interrupted for good returns; octets are reported exactly as OpenSSL reports them, -2 stands for a read or
write to be tried again, and errors are never reported as octets. -/
theorem C102_ssl (intr : List RecCall) (hi : ∀ c ∈ intr, c.err = .syscall ∧ c.res < 0 ∧ c.eintr = true) (c : RecCall) (more : List RecCall)
    (hc : ¬ (c.err = .syscall ∧ c.res < 0 ∧ c.eintr = true)) :
    ∃ r w, recRead (intr ++ c :: more) = some r ∧ recWrite (intr ++ c :: more) = some w ∧
      (c.err = .none → r = c.res ∧ w = c.res) ∧
      (c.err = .wantRead ∨ c.err = .wantWrite ∨ c.err = .wantX509 → r = -2 ∧ w = -2) ∧
      (c.err = .syscall ∨ c.err = .ssl ∨ c.err = .other ∨ c.err = .zeroReturn → w ≤ 0 ∧ w ≠ -2 ∧ (c.res ≤ 0 → r ≤ 0 ∧ (c.res ≠ -2 → r ≠ -2))) := by
  induction intr with
  | nil =>
    obtain ⟨res, err, ei⟩ := c
    simp only [List.nil_append]
    cases err <;> simp only [recRead, recWrite]
    case syscall =>
      by_cases h : res < 0
      · cases ei
        · simp [h]
        · exact absurd ⟨rfl, h, rfl⟩ hc
      · simp [h]
    all_goals simp
    all_goals omega
  | cons d intr ih =>
    obtain ⟨h1, h2, h3⟩ := hi d (by simp)
    have ih := ih (fun c hc => hi c (by simp [hc]))
    simpa only [List.cons_append, recRead, recWrite, h1, h2, h3, if_true] using ih

-- an interrupted call, then five octets; an interrupted call, then a write that would block
example : recRead [⟨-1, .syscall, true⟩, ⟨5, .none, false⟩] = some 5 ∧ recWrite [⟨-1, .syscall, true⟩, ⟨-1, .wantWrite, false⟩] = some (-2) := ⟨rfl, rfl⟩

end Verif.Props
