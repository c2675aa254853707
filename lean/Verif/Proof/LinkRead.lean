import Verif.Spec.Link
import Verif.Proof.Stream
/-! Reading from a stream of octets, call by call. -/
namespace Verif.Proof
open Verif.Model Verif.Spec

theorem lk_readline_none : ∀ (bs : List Byte) (fuel : Nat) (first : Bool) (acc : List Byte), LF ∉ bs → bs.length < fuel →
    readlineLoop fuel first acc (bs.map .byte) = (.again (acc ++ bs), [])
  | [], 0, _, _, _, h => by simp at h
  | [], fuel + 1, first, acc, _, _ => by simp [readlineLoop]
  | b :: bs, 0, _, _, _, h => by simp at h
  | b :: bs, fuel + 1, first, acc, hn, h => by
    simp only [List.mem_cons, not_or] at hn
    simp only [List.map_cons, readlineLoop, if_neg (fun e : b = LF => hn.1 e.symm)]
    rw [lk_readline_none bs fuel false (acc ++ [b]) hn.2 (by simpa using h)]
    simp

theorem lk_readline_lf : ∀ (l r : List Byte) (fuel : Nat) (first : Bool) (acc : List Byte), LF ∉ l → l.length < fuel →
    readlineLoop fuel first acc ((l ++ LF :: r).map .byte) = (.complete (acc ++ l ++ [LF]), r.map .byte)
  | [], r, 0, _, _, _, h => by simp at h
  | [], r, fuel + 1, first, acc, _, _ => by simp [readlineLoop]
  | b :: bs, r, 0, _, _, _, h => by simp at h
  | b :: bs, r, fuel + 1, first, acc, hn, h => by
    simp only [List.mem_cons, not_or] at hn
    simp only [List.cons_append, List.map_cons, readlineLoop, if_neg (fun e : b = LF => hn.1 e.symm)]
    rw [lk_readline_lf bs r fuel false (acc ++ [b]) hn.2 (by simpa using h)]
    simp

theorem lk_takeBytes : ∀ (n : Nat) (bs : List Byte), takeBytes n (bs.map .byte) = (bs.take n, (bs.drop n).map .byte)
  | 0, bs => by cases bs <;> simp [takeBytes]
  | n + 1, [] => by simp [takeBytes]
  | n + 1, b :: bs => by simp [takeBytes, lk_takeBytes n bs]

theorem lk_recv (n : Nat) (bs : List Byte) (h : bs ≠ []) :
    recv n (bs.map .byte) = (.data (bs.take n), (bs.drop n).map .byte) := by
  cases bs with
  | nil => exact absurd rfl h
  | cons b bs =>
    have := lk_takeBytes n (b :: bs)
    simp only [List.map_cons] at this
    simp only [List.map_cons, recv, this]

/-- The reader is in the state `st`, the last `n` reads ended in the same header line, and `bytes` are on their way:
together they are the frames given. -/
def Progress (n : Nat) (st : ReadState) (bytes : List Byte) : List Frame → Prop
  | [] => n = 0 ∧ st = .init ∧ bytes = []
  | f :: fs => (∀ g ∈ f :: fs, Legal g ∧ SeqOk g) ∧ ∃ header rest, headerOf f = some header ∧ wire fs = some rest ∧
      ((∃ got left, st = ⟨if got = [] then none else some got, none, n⟩ ∧ got ++ left = header ∧ left ≠ [] ∧
          bytes = left ++ (bodyOf f ++ rest) ∧ (got = [] → n = 0)) ∨
       (n = 0 ∧ f.type ≠ .seq ∧ ∃ got left, st = ⟨none, some (Frame.hdr f, got, left.length), 0⟩ ∧ got ++ left = bodyOf f ∧
          left ≠ [] ∧ bytes = left ++ rest))

theorem lk_wire_some : ∀ (fs : List Frame), (∀ g ∈ fs, Legal g) → ∃ r, wire fs = some r
  | [], _ => ⟨[], rfl⟩
  | f :: fs, h => by
    obtain ⟨r, hr⟩ := lk_wire_some fs (fun g hg => h g (List.mem_cons_of_mem _ hg))
    have hf := h f List.mem_cons_self
    have hh : ∃ hd, headerOf f = some hd := by
      by_cases ht : f.type = .seq
      · exact ⟨_, headerOf_seq f hf ht⟩
      · exact ⟨_, headerOf_data f hf ht⟩
    obtain ⟨hd, hh⟩ := hh
    exact ⟨hd ++ (bodyOf f ++ r), by simp [wire, hh, hr]⟩

/-- Nothing read of these frames yet. -/
theorem lk_fresh (fs : List Frame) (hl : ∀ g ∈ fs, Legal g ∧ SeqOk g) (bytes : List Byte) (h : wire fs = some bytes) :
    Progress 0 .init bytes fs := by
  cases fs with
  | nil => simp [wire] at h; subst h; exact ⟨rfl, rfl, rfl⟩
  | cons f fs =>
    obtain ⟨rest, hr⟩ := lk_wire_some fs (fun g hg => (hl g (List.mem_cons_of_mem _ hg)).1)
    cases hh : headerOf f with
    | none => simp [wire, hh] at h
    | some header =>
      refine ⟨hl, header, rest, hh, hr, .inl ⟨[], header, rfl, rfl, ?_, ?_, fun _ => rfl⟩⟩
      · obtain ⟨h0, e, _⟩ := (headerOf_line f (hl f List.mem_cons_self).1 header hh).shape
        rw [e]; simp
      · simp [wire, hh, hr] at h; exact h.symm

theorem lk_wire_snoc (f : Frame) (header : List Byte) (hh : headerOf f = some header) : ∀ (fs : List Frame) (r : List Byte),
    wire fs = some r → wire (fs ++ [f]) = some (r ++ (header ++ bodyOf f))
  | [], r, h => by
    have h : [] = r := by simpa [wire] using h
    subst h
    simp [wire, hh]
  | g :: fs, r, h => by
    cases hg : headerOf g with
    | none => simp [wire, hg] at h
    | some hd =>
      cases hw : wire fs with
      | none => simp [wire, hw] at h
      | some r' =>
        have ih := lk_wire_snoc f header hh fs r' hw
        have e : r = hd ++ (bodyOf g ++ r') := by simpa [wire, hg, hw] using h.symm
        subst e
        simp [wire, hg, ih]

/-- A frame is written at the end of the stream. -/
theorem Progress.snoc {n st bytes fs} (h : Progress n st bytes fs) (f : Frame) (hf : Legal f ∧ SeqOk f)
    (header : List Byte) (hh : headerOf f = some header) :
    Progress n st (bytes ++ (header ++ bodyOf f)) (fs ++ [f]) := by
  cases fs with
  | nil =>
    obtain ⟨rfl, rfl, rfl⟩ := h
    exact lk_fresh [f] (by simpa using hf) _ (by simp [wire, hh])
  | cons g fs =>
    obtain ⟨hl, hd, rest, h1, h2, h3⟩ := h
    refine ⟨?_, hd, rest ++ (header ++ bodyOf f), h1, lk_wire_snoc f header hh fs rest h2, ?_⟩
    · intro x hx
      rcases List.mem_append.mp (show x ∈ (g :: fs) ++ [f] from hx) with hx | hx
      · exact hl x hx
      · rw [List.mem_singleton.mp hx]; exact hf
    · rcases h3 with ⟨got, left, e1, e2, e3, e4, e5⟩ | ⟨hn, ht, got, left, e1, e2, e3, e4⟩
      · exact .inl ⟨got, left, e1, e2, e3, by simp [e4], e5⟩
      · exact .inr ⟨hn, ht, got, left, e1, e2, e3, by simp [e4]⟩

theorem Progress.legal {n st bytes fs} (h : Progress n st bytes fs) : ∀ g ∈ fs, Legal g ∧ SeqOk g := by
  cases fs with
  | nil => intro g hg; cases hg
  | cons f fs => exact h.1

/-- No octets on their way: no frames. -/
theorem Progress.empty {n st fs} (h : Progress n st [] fs) : fs = [] := by
  cases fs with
  | nil => rfl
  | cons f fs =>
    obtain ⟨_, hd, rest, _, _, ⟨got, left, _, _, e3, e4, _⟩ | ⟨_, _, got, left, _, _, e3, e4⟩⟩ := h
    · cases left <;> simp at e3 e4
    · cases left <;> simp at e3 e4

theorem Progress.nonempty {n st bytes fs} (h : Progress n st bytes fs) (hb : bytes ≠ []) : fs ≠ [] := by
  rintro rfl
  exact hb h.2.2

theorem lk_split_lf : ∀ (l : List Byte), LF ∈ l → ∃ a b, l = a ++ LF :: b ∧ LF ∉ a
  | [], h => by cases h
  | c :: l, h => by
    by_cases hc : c = LF
    · exact ⟨[], l, by simp [hc], by simp⟩
    · rcases List.mem_cons.mp h with h | h
      · exact absurd h.symm hc
      · obtain ⟨a, b, e, ha⟩ := lk_split_lf l h
        refine ⟨c :: a, b, by simp [e], ?_⟩
        simp only [List.mem_cons, not_or]
        exact ⟨fun e => hc e.symm, ha⟩

/-- The first LF splits a list in one way. -/
theorem lk_lf_unique : ∀ (a b a' b' : List Byte), a ++ LF :: b = a' ++ LF :: b' → LF ∉ a → LF ∉ a' → a = a' ∧ b = b'
  | [], b, [], b', h, _, _ => by simpa using h
  | [], b, x :: a', b', h, _, h2 => by simp at h; exact absurd (by simp [h.1]) h2
  | x :: a, b, [], b', h, h1, _ => by simp at h; exact absurd (by simp [h.1]) h1
  | x :: a, b, y :: a', b', h, h1, h2 => by
    simp only [List.cons_append, List.cons.injEq] at h
    simp only [List.mem_cons, not_or] at h1 h2
    obtain ⟨r1, r2⟩ := lk_lf_unique a b a' b' h.2 h1.2 h2.2
    exact ⟨by rw [h.1, r1], r2⟩

theorem lk_bytes_back (bs : List Byte) :
    (bs.map Tok.byte).filterMap (fun | .byte b => some b | _ => none) = bs := by
  induction bs with
  | nil => rfl
  | cons b bs ih => simp [ih]

/-- Reading the payload: `avail` octets are there, `tail` come later. -/
theorem lk_body {f : Frame} {got left rest avail tail : List Byte} (hL : Legal f) (ht : f.type ≠ .seq)
    (hb : got ++ left = bodyOf f) (hl : left ≠ []) (ha : avail ≠ []) (hs : avail ++ tail = left ++ rest) :
    (∃ r, avail = left ++ r ∧ rest = r ++ tail ∧
      recv left.length (avail.map .byte) = (.data left, r.map .byte) ∧
      processBuffer (Frame.hdr f) (got ++ left) .init = .frame f .init) ∨
    (∃ left', left = avail ++ left' ∧ left' ≠ [] ∧ tail = left' ++ rest ∧
      recv left.length (avail.map .byte) = (.data avail, [])) := by
  rcases Nat.lt_or_ge avail.length left.length with hlt | hge
  · right
    obtain ⟨left', e⟩ : ∃ left', left = avail ++ left' := by
      refine ⟨left.drop avail.length, ?_⟩
      have h1 : left.take avail.length = avail := by
        have h2 := congrArg (List.take avail.length) hs
        rw [List.take_left, List.take_append_of_le_length (by omega)] at h2
        exact h2.symm
      rw [← h1, List.length_take, Nat.min_eq_left (by omega)]
      exact (List.take_append_drop _ _).symm
    refine ⟨left', e, ?_, ?_, ?_⟩
    · rintro rfl; rw [e] at hlt; simp at hlt
    · rw [e, List.append_assoc] at hs; exact List.append_cancel_left hs
    · rw [lk_recv _ _ ha]
      rw [List.take_of_length_le (by omega), List.drop_eq_nil_of_le (by omega)]
      rfl
  · left
    have h1 : avail.take left.length = left := by
      have h2 := congrArg (List.take left.length) hs
      rw [List.take_left, List.take_append_of_le_length hge] at h2
      exact h2
    refine ⟨avail.drop left.length, ?_, ?_, ?_, ?_⟩
    · rw [← h1, List.length_take, Nat.min_eq_left hge]; exact (List.take_append_drop _ _).symm
    · have h2 := congrArg (List.drop left.length) hs
      rw [List.drop_left, List.drop_append_of_le_length hge] at h2
      exact h2.symm
    · rw [lk_recv _ _ ha, h1]
    · rw [hb]; exact processBuffer_ok f hL ht _

/-- One call of `vortex_frame_get_next`: `avail` octets are in the socket and `tail` come later. Either the next frame
is read, or there is progress. -/
theorem lk_getNext {n : Nat} {st : ReadState} {avail tail : List Byte} {f : Frame} {fs : List Frame} (env : ReadEnv)
    (h : Progress n st (avail ++ tail) (f :: fs)) (ha : avail ≠ [])
    (hch : env.channelExists f.channel = true)
    (hsq : f.type ≠ .seq → env.seqnoOk f.channel f.seqno f.size = true)
    (hn : interruptions n st avail ≤ 25) :
    ∃ st' r, r.length < avail.length ∧
      ((getNext env st (avail.map .byte) = (.frame f st', r.map .byte) ∧ Progress (interruptions n st avail) st' (r ++ tail) fs) ∨
       (getNext env st (avail.map .byte) = (.pending st', r.map .byte) ∧
          Progress (interruptions n st avail) st' (r ++ tail) (f :: fs))) := by
  obtain ⟨hl, header, rest, hh, hw, hp⟩ := h
  have hL := (hl f List.mem_cons_self).1
  have hS := (hl f List.mem_cons_self).2
  have hfs : ∀ g ∈ fs, Legal g ∧ SeqOk g := fun g hg => hl g (List.mem_cons_of_mem _ hg)
  have hline := headerOf_line f hL header hh
  obtain ⟨h0, hshape, hlf, hnul⟩ := hline.shape
  have hapos : 0 < avail.length := List.length_pos_iff.mpr ha
  rcases hp with ⟨got, left, rfl, hgl, hne, hbytes, hgn⟩ | ⟨rfl, ht, got, left, rfl, hgl, hne, hbytes⟩
  · -- header
    have hlen : got.length + left.length ≤ 62 := by
      have := hline.short; rw [← hgl, List.length_append] at this; exact this
    have hpl : ((if got = [] then none else some got : Option (List Byte)).getD []) = got := by
      by_cases hg : got = [] <;> simp [hg]
    have hleftpos : 0 < left.length := List.length_pos_iff.mpr hne
    -- the line left is `l ++ [LF]`
    obtain ⟨l, hleft, hll⟩ : ∃ l, left = l ++ [LF] ∧ LF ∉ l := by
      have hx : got ++ left = (h0 ++ [CR]) ++ [LF] := by rw [hgl, hshape]
      obtain ⟨l, x, e⟩ : ∃ l x, left = l ++ [x] :=
        ⟨left.dropLast, left.getLast hne, (List.dropLast_concat_getLast hne).symm⟩
      rw [e, ← List.append_assoc] at hx
      have hx2 := List.append_inj' hx rfl
      simp only [List.cons.injEq, and_true] at hx2
      refine ⟨l, by rw [e, hx2.2], ?_⟩
      intro hm
      have : LF ∈ h0 ++ [CR] := by rw [← hx2.1]; exact List.mem_append_right _ hm
      rcases List.mem_append.mp this with h1 | h1
      · exact hlf h1
      · exact absurd (List.mem_singleton.mp h1) (by decide)
    by_cases hin : LF ∈ avail
    · -- the line is complete
      have hint : interruptions n ⟨if got = [] then none else some got, none, n⟩ avail = 0 := by
        unfold interruptions; rw [if_neg ha, if_neg (by simp [hin])]
      rw [hint]
      obtain ⟨a, b, hav, hna⟩ := lk_split_lf avail hin
      have hu : a = l ∧ b ++ tail = bodyOf f ++ rest := by
        apply lk_lf_unique _ _ _ _ _ hna hll
        rw [hav, hleft] at hbytes
        simpa using hbytes
      obtain ⟨rfl, hbt⟩ := hu
      have hrl := lk_readline_lf a b (98 - got.length) true got hna (by rw [hleft] at hlen; simp at hlen; omega)
      have hline2 : got ++ a ++ [LF] = header := by rw [← hgl, hleft]; simp
      rw [← hav, hline2] at hrl
      have hstep : getNext env ⟨if got = [] then none else some got, none, n⟩ (avail.map .byte) =
          match checkHeader env header .init with
          | .inl x => (x, b.map .byte)
          | .inr f => readPayload f .init (b.map .byte) := by
        unfold getNext
        simp only [hpl]
        rw [if_neg (by omega)]
        simp only [hrl]
        rfl
      rw [hstep]
      have hblen : b.length < avail.length := by rw [hav]; simp; omega
      by_cases ht : f.type = .seq
      · rw [checkHeader_seq env _ f hL hS ht header hh hch]
        refine ⟨.init, b, hblen, .inl ⟨rfl, ?_⟩⟩
        have hbo : bodyOf f = [] := by unfold bodyOf; rw [if_pos ht]
        rw [hbo, List.nil_append] at hbt
        rw [hbt]
        exact lk_fresh fs hfs rest hw
      · rw [checkHeader_data env _ f hL ht header hh hch (hsq ht)]
        have hsz := hL.size
        have hbl := bodyOf_length f hL ht
        show ∃ st' r, r.length < avail.length ∧
          ((readPayload (Frame.hdr f) .init (b.map .byte) = (.frame f st', r.map .byte) ∧ Progress 0 st' (r ++ tail) fs) ∨
           (readPayload (Frame.hdr f) .init (b.map .byte) = (.pending st', r.map .byte) ∧ Progress 0 st' (r ++ tail) (f :: fs)))
        have hsize : (Frame.hdr f).size = f.size := rfl
        unfold readPayload
        simp only [hsize]
        rw [if_neg (by omega), if_neg (by omega)]
        by_cases hb0 : b = []
        · subst hb0
          refine ⟨⟨none, some (Frame.hdr f, [], (bodyOf f).length), 0⟩, [], hapos, .inr ⟨?_, ?_⟩⟩
          · simp only [List.map_nil, recv, hbl]
            rfl
          · refine ⟨hl, header, rest, hh, hw, .inr ⟨rfl, ht, [], bodyOf f, rfl, rfl, ?_, by simpa using hbt⟩⟩
            intro hx; rw [hx] at hbl; simp at hbl
        · have hbody : bodyOf f ≠ [] := by intro hx; rw [hx] at hbl; simp at hbl
          rcases lk_body (got := []) (left := bodyOf f) hL ht (List.nil_append _) hbody hb0 hbt with ⟨r, e1, e2, e3, e4⟩ | ⟨left', e1, e2, e3, e4⟩
          · rw [hbl] at e3
            simp only [e3, hbl, if_true]
            refine ⟨.init, r, ?_, .inl ⟨?_, ?_⟩⟩
            · rw [hav, e1]; simp; omega
            · rw [← e4]; rfl
            · rw [← e2]; exact lk_fresh fs hfs rest hw
          · rw [hbl] at e4
            have hne2 : ¬ b.length = f.size.toNat + 5 := by
              rw [← hbl, e1]; simp; exact e2
            simp only [e4, if_neg hne2]
            refine ⟨_, [], hapos, .inr ⟨rfl, ?_⟩⟩
            refine ⟨hl, header, rest, hh, hw, .inr ⟨rfl, ht, b, left', ?_, e1.symm, e2, by simpa using e3⟩⟩
            have : f.size.toNat + 5 - b.length = left'.length := by rw [← hbl, e1]; simp
            rw [this]; rfl
    · -- the line is not complete
      have hint : interruptions n ⟨if got = [] then none else some got, none, n⟩ avail = n + 1 := by
        unfold interruptions; rw [if_neg ha, if_pos ⟨rfl, hin⟩]
      rw [hint] at hn ⊢
      -- avail is a proper prefix of what is left of the line
      have hlt : avail.length < left.length := by
        rcases Nat.lt_or_ge avail.length left.length with h1 | h1
        · exact h1
        · exfalso; apply hin
          have h2 := congrArg (List.take left.length) hbytes
          rw [List.take_left, List.take_append_of_le_length h1] at h2
          have : LF ∈ avail.take left.length := by rw [h2, hleft]; simp
          exact List.mem_of_mem_take this
      obtain ⟨left', e⟩ : ∃ left', left = avail ++ left' := by
        refine ⟨left.drop avail.length, ?_⟩
        have h1 : left.take avail.length = avail := by
          have h2 := congrArg (List.take avail.length) hbytes
          rw [List.take_left, List.take_append_of_le_length (by omega)] at h2
          exact h2.symm
        rw [← h1, List.length_take, Nat.min_eq_left (by omega)]
        exact (List.take_append_drop _ _).symm
      have hne' : left' ≠ [] := by rintro rfl; rw [e] at hlt; simp at hlt
      have hrl := lk_readline_none avail (98 - got.length) true got hin (by omega)
      have hga : got ++ avail ≠ [] := by simp [ha]
      have hclean : (got ++ avail).takeWhile (· ≠ NUL) = got ++ avail := by
        apply takeWhile_all
        intro c hc
        simp only [ne_eq, decide_not, Bool.not_eq_eq_eq_not, Bool.not_true, decide_eq_false_iff_not]
        rintro rfl
        have hm : NUL ∈ header := by
          rw [← hgl, e, ← List.append_assoc]; exact List.mem_append_left _ hc
        rw [hshape] at hm
        rcases List.mem_append.mp hm with h1 | h1
        · rcases List.mem_append.mp h1 with h1 | h1
          · exact hnul h1
          · exact absurd (List.mem_singleton.mp h1) (by decide)
        · exact absurd (List.mem_singleton.mp h1) (by decide)
      refine ⟨⟨some (got ++ avail), none, n + 1⟩, [], hapos, .inr ⟨?_, ?_⟩⟩
      · unfold getNext
        simp only [hpl]
        rw [if_neg (by omega)]
        simp only [hrl, if_neg hga, hclean]
        rw [if_neg (by omega)]
        rfl
      · refine ⟨hl, header, rest, hh, hw, .inl ⟨got ++ avail, left', ?_, ?_, hne', ?_, fun hx => absurd hx hga⟩⟩
        · rw [if_neg hga]
        · rw [← hgl, e, List.append_assoc]
        · rw [e, List.append_assoc] at hbytes
          simpa using List.append_cancel_left hbytes
  · -- payload
    have hint : interruptions 0 ⟨none, some (Frame.hdr f, got, left.length), 0⟩ avail = 0 := by
      unfold interruptions; rw [if_neg ha, if_neg (by simp)]
    rw [hint]
    rcases lk_body hL ht hgl hne ha hbytes with ⟨r, e1, e2, e3, e4⟩ | ⟨left', e1, e2, e3, e4⟩
    · refine ⟨.init, r, ?_, .inl ⟨?_, ?_⟩⟩
      · rw [e1]; have := List.length_pos_iff.mpr hne; simp; omega
      · unfold getNext
        simp only [e3, ne_eq, not_true_eq_false, if_false]
        rw [← e4]; rfl
      · rw [← e2]; exact lk_fresh fs hfs rest hw
    · have hne2 : avail.length ≠ left.length := by rw [e1]; simp; exact e2
      refine ⟨⟨none, some (Frame.hdr f, got ++ avail, left'.length), 0⟩, [], hapos, .inr ⟨?_, ?_⟩⟩
      · unfold getNext
        simp only [e4, ne_eq, hne2, not_false_eq_true, if_true]
        have : left.length - avail.length = left'.length := by rw [e1]; simp
        rw [this]; rfl
      · exact ⟨hl, header, rest, hh, hw, .inr ⟨rfl, ht, got ++ avail, left', rfl, by rw [← hgl, e1, List.append_assoc], e2, by simpa using e3⟩⟩

end Verif.Proof
