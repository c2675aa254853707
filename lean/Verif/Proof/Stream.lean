import Verif.Spec.Stream
import Verif.Proof.Header
/-! Simulation proof: reading is independent of segmentation. -/
namespace Verif.Proof
open Verif.Model Verif.Spec

def Junk (ts : List Tok) : Prop := ∀ t ∈ ts, t = .cut ∨ t = .again

theorem poll_junk (j r : List Tok) (hj : Junk j) : poll (j ++ r) = poll r := by
  induction j with
  | nil => rfl
  | cons t ts ih =>
    have := ih (fun x hx => hj x (by simp [hx]))
    rcases hj t (by simp) with rfl | rfl <;> simpa [poll] using this

theorem octets_append (a b : List Tok) : octets (a ++ b) = octets a ++ octets b := by
  induction a with
  | nil => rfl
  | cons t ts ih => cases t <;> simp [octets, ih]

theorem blocks_append (a b : List Tok) : blocks (a ++ b) = blocks a + blocks b := by
  induction a with
  | nil => simp [blocks]
  | cons t ts ih => cases t <;> simp [blocks, ih] <;> omega

theorem octets_nil_junk (ts : List Tok) (he : .eof ∉ ts) (h : octets ts = []) : Junk ts := by
  induction ts with
  | nil => intro t ht; simp at ht
  | cons t ts ih =>
    intro x hx
    simp only [List.mem_cons, not_or] at he hx
    cases t with
    | byte b => simp [octets] at h
    | eof => exact absurd rfl he.1
    | cut => rcases hx with rfl | hx
             · simp
             · exact ih he.2 (by simpa [octets] using h) x hx
    | again => rcases hx with rfl | hx
               · simp
               · exact ih he.2 (by simpa [octets] using h) x hx

theorem drive_junk {σ : Type} (envOf : σ → ReadEnv) (handle : σ → Frame → Option σ) (n : Nat)
    (s0 : σ) (st : ReadState) (j r : List Tok) (hj : Junk j) :
    drive envOf handle n s0 st (j ++ r) = drive envOf handle n s0 st r := by
  cases n with
  | zero => rfl
  | succ n => simp only [drive, poll_junk j r hj]

theorem takeBytes_split (ts rest : List Tok) (he : .eof ∉ ts) :
    ∃ ts1, (takeBytes (octets ts).length (ts ++ rest)).2 = ts1 ++ rest ∧ .eof ∉ ts1 ∧
      (takeBytes (octets ts).length (ts ++ rest)).1 ++ octets ts1 = octets ts ∧
      ts1.length ≤ ts.length ∧
      ∀ b r, ts = .byte b :: r → ts1.length < ts.length ∧
        (takeBytes (octets ts).length (ts ++ rest)).1 ≠ [] := by
  induction ts with
  | nil => exact ⟨[], by simp [takeBytes, octets]⟩
  | cons t ts ih =>
    simp only [List.mem_cons, not_or] at he
    obtain ⟨ts1, h1, h2, h3, h4, h5⟩ := ih he.2
    cases t with
    | byte b =>
      refine ⟨ts1, ?_⟩
      simp only [octets, List.length_cons, List.cons_append, takeBytes]
      refine ⟨h1, h2, by rw [h3], by omega, ?_⟩
      intro b r _
      exact ⟨by omega, by simp⟩
    | eof => exact absurd rfl he.1
    | cut =>
      refine ⟨.cut :: ts, ?_⟩
      simp only [octets, List.cons_append]
      cases hn : (octets ts).length <;> simp [takeBytes, octets, he.2]
    | again =>
      refine ⟨.again :: ts, ?_⟩
      simp only [octets, List.cons_append]
      cases hn : (octets ts).length <;> simp [takeBytes, octets, he.2]

/-- One `recv` of all the octets `ts` still carries. -/
theorem recv_split (ts rest : List Tok) (he : .eof ∉ ts) (hne : octets ts ≠ []) :
    ∃ ts1, .eof ∉ ts1 ∧ ts1.length < ts.length ∧
      ((recv (octets ts).length (ts ++ rest) = (.again, ts1 ++ rest) ∧ octets ts1 = octets ts ∧
          ∀ b r, ts ≠ .byte b :: r) ∨
       ∃ bs, recv (octets ts).length (ts ++ rest) = (.data bs, ts1 ++ rest) ∧ bs ≠ [] ∧
          bs ++ octets ts1 = octets ts) := by
  induction ts with
  | nil => simp [octets] at hne
  | cons t ts ih =>
    simp only [List.mem_cons, not_or] at he
    cases t with
    | eof => exact absurd rfl he.1
    | again =>
      refine ⟨ts, he.2, by simp, Or.inl ⟨?_, rfl, by simp⟩⟩
      simp [recv]
    | cut =>
      obtain ⟨ts1, h1, h2, h3⟩ := ih he.2 (by simpa [octets] using hne)
      refine ⟨ts1, h1, by simp only [List.length_cons]; omega, ?_⟩
      rcases h3 with ⟨h3, h4, h5⟩ | ⟨bs, h3⟩
      · exact Or.inl ⟨by simpa [recv, octets] using h3, by simpa [octets] using h4, by simp⟩
      · exact Or.inr ⟨bs, by simpa [recv, octets] using h3⟩
    | byte b =>
      obtain ⟨ts1, h1, h2, h3, h4, h5⟩ := takeBytes_split (.byte b :: ts) rest (by simp [he.2])
      refine ⟨ts1, h2, (h5 b ts rfl).1, Or.inr ⟨_, ?_, (h5 b ts rfl).2, h3⟩⟩
      rw [List.cons_append] at h1 ⊢
      simp only [recv, h1]

theorem poll_split (ts rest : List Tok) (he : .eof ∉ ts) (hne : octets ts ≠ []) :
    ∃ b ts1, poll (ts ++ rest) = .byte b :: ts1 ++ rest ∧ .eof ∉ ts1 ∧
      octets (.byte b :: ts1) = octets ts ∧ blocks (.byte b :: ts1) ≤ blocks ts ∧
      (Tok.byte b :: ts1).length ≤ ts.length := by
  induction ts with
  | nil => simp [octets] at hne
  | cons t ts ih =>
    simp only [List.mem_cons, not_or] at he
    cases t with
    | eof => exact absurd rfl he.1
    | byte b => exact ⟨b, ts, by simp [poll], he.2, rfl, by simp, by simp⟩
    | again =>
      obtain ⟨b, ts1, h1, h2, h3, h4, h5⟩ := ih he.2 (by simpa [octets] using hne)
      exact ⟨b, ts1, by simpa [poll] using h1, h2, by simpa [octets] using h3, by
        simp only [blocks] at h4 ⊢; omega, by simp only [List.length_cons] at h5 ⊢; omega⟩
    | cut =>
      obtain ⟨b, ts1, h1, h2, h3, h4, h5⟩ := ih he.2 (by simpa [octets] using hne)
      exact ⟨b, ts1, by simpa [poll] using h1, h2, by simpa [octets] using h3, by
        simp only [blocks] at h4 ⊢; omega, by simp only [List.length_cons] at h5 ⊢; omega⟩

/-- Reading a header line: either it completes, or it is interrupted once. -/
theorem readlineLoop_split (hs X : List Tok) (he : .eof ∉ hs) (l : List Byte) (hl : LF ∉ l)
    (ho : octets hs = l ++ [LF]) (fuel : Nat) (hf : l.length + 1 ≤ fuel) (first : Bool)
    (acc : List Byte) :
    ∃ ts1, .eof ∉ ts1 ∧ ts1.length < hs.length ∧
      ((readlineLoop fuel first acc (hs ++ X) = (.complete (acc ++ l ++ [LF]), ts1 ++ X) ∧
          octets ts1 = []) ∨
       ∃ a b, readlineLoop fuel first acc (hs ++ X) = (.again (acc ++ a), ts1 ++ X) ∧
          l = a ++ b ∧ octets ts1 = b ++ [LF] ∧ blocks ts1 + 1 ≤ blocks hs ∧
          ∀ c r, hs = .byte c :: r → a ≠ []) := by
  induction hs generalizing l fuel first acc with
  | nil => simp [octets] at ho
  | cons t hs ih =>
    simp only [List.mem_cons, not_or] at he
    match fuel, hf with
    | fuel + 1, hf =>
    cases t with
    | eof => exact absurd rfl he.1
    | again =>
      refine ⟨hs, he.2, by simp, Or.inr ⟨[], l, ?_, by simp, by simpa [octets] using ho, by
        simp [blocks], by simp⟩⟩
      simp [readlineLoop]
    | cut =>
      obtain ⟨ts1, h1, h2, h3⟩ := ih he.2 l hl (by simpa [octets] using ho) (fuel + 1) hf first acc
      refine ⟨ts1, h1, by simp only [List.length_cons]; omega, ?_⟩
      rcases h3 with h3 | ⟨a, b, h3, h4, h5, h6, h7⟩
      · exact Or.inl (by simpa [readlineLoop] using h3)
      · exact Or.inr ⟨a, b, by simpa [readlineLoop] using h3, h4, h5, by simpa [blocks] using h6,
          by simp⟩
    | byte c =>
      match l, hl, ho with
      | [], _, ho =>
        simp only [octets, List.nil_append, List.cons.injEq] at ho
        obtain ⟨hc, ho'⟩ := ho
        exact ⟨hs, he.2, by simp, Or.inl ⟨by simp [readlineLoop, hc], ho'⟩⟩
      | x :: l, hl, ho =>
        simp only [octets, List.cons_append, List.cons.injEq] at ho
        obtain ⟨rfl, ho⟩ := ho
        simp only [List.mem_cons, not_or] at hl
        have hc : c ≠ LF := fun h => hl.1 h.symm
        obtain ⟨ts1, h1, h2, h3⟩ := ih he.2 l hl.2 ho fuel
          (by simp only [List.length_cons] at hf; omega) false (acc ++ [c])
        refine ⟨ts1, h1, by simp only [List.length_cons]; omega, ?_⟩
        rcases h3 with ⟨h3, h4⟩ | ⟨a, b, h3, h4, h5, h6, h7⟩
        · exact Or.inl ⟨by simpa [readlineLoop, hc] using h3, h4⟩
        · exact Or.inr ⟨c :: a, b, by simpa [readlineLoop, hc] using h3, by simp [h4], h5,
            by simpa [blocks] using h6, by simp⟩

theorem takeWhile_all (p : Byte → Bool) (l : List Byte) (h : ∀ c ∈ l, p c = true) :
    l.takeWhile p = l := by
  induction l with
  | nil => rfl
  | cons x xs ih =>
    rw [List.takeWhile_cons, if_pos (h x (by simp)), ih (fun c hc => h c (by simp [hc]))]

/-- Shape of a header line. -/
structure HeaderLine (l : List Byte) : Prop where
  shape : ∃ h0, l = h0 ++ [CR] ++ [LF] ∧ LF ∉ h0 ∧ NUL ∉ h0
  short : l.length ≤ 62

theorem dec_ne {v : Nat} {c : Byte} (hc : ¬ IsDigit c) : c ∉ dec v :=
  fun h => hc (dec_digit v c h)

instance (b : Byte) : Decidable (IsDigit b) := by unfold IsDigit; infer_instance

theorem lf_not_digit : ¬ IsDigit LF := by decide
theorem nul_not_digit : ¬ IsDigit NUL := by decide

theorem letters_clean (t : FType) : LF ∉ t.letters ∧ NUL ∉ t.letters := by
  cases t <;> decide

theorem dataHeader_line (type : FType) (ch mn : Nat) (more : Bool) (sq sz : Nat) (an : Option Nat)
    (hch : ch < 2147483648) (hmn : mn < 2147483648) (hsq : sq < 4294967296)
    (hsz : sz < 2147483648) (ha : ∀ a ∈ an, a < 2147483648) :
    HeaderLine (dataHeader type ch mn more sq sz an) := by
  have a1 := dec_length_le ch (by omega)
  have a2 := dec_length_le mn (by omega)
  have a3 := dec_length_le sq (by omega)
  have a4 := dec_length_le sz (by omega)
  obtain ⟨hlf, hnul⟩ := letters_clean type
  constructor
  · refine ⟨type.letters ++ SP :: (dec ch ++ SP :: (dec mn ++ SP :: (if more then STAR else DOT) :: SP ::
      (dec sq ++ SP :: (dec sz ++ (match an with | some a => SP :: dec a | none => []))))), ?_, ?_, ?_⟩
    · cases an <;> simp [dataHeader, crlf]
    · have e1 : ¬ (LF = SP) := by decide
      have e2 : ¬ (LF = STAR) := by decide
      have e3 : ¬ (LF = DOT) := by decide
      cases more <;> cases an <;>
        simp [hlf, dec_ne lf_not_digit, e1, e2, e3]
    · have e1 : ¬ (NUL = SP) := by decide
      have e2 : ¬ (NUL = STAR) := by decide
      have e3 : ¬ (NUL = DOT) := by decide
      cases more <;> cases an <;>
        simp [hnul, dec_ne nul_not_digit, e1, e2, e3]
  · unfold dataHeader
    cases an with
    | none => simp [letters_length, crlf]; omega
    | some a =>
      have a5 := dec_length_le a (by have := ha a rfl; omega)
      simp [letters_length, crlf]; omega

theorem seqHeader_line (ch ack win : Nat)
    (hch : ch < 2147483648) (hmn : ack < 4294967296) (hsq : win < 4294967296) :
    HeaderLine (seqHeader ch ack win) := by
  have a1 := dec_length_le ch (by omega)
  have a2 := dec_length_le ack (by omega)
  have a3 := dec_length_le win (by omega)
  obtain ⟨hlf, hnul⟩ := letters_clean .seq
  constructor
  · refine ⟨FType.seq.letters ++ SP :: (dec ch ++ SP :: (dec ack ++ SP :: dec win)), ?_, ?_, ?_⟩
    · simp [seqHeader, crlf]
    · have e1 : ¬ (LF = SP) := by decide
      simp [hlf, dec_ne lf_not_digit, e1]
    · have e1 : ¬ (NUL = SP) := by decide
      simp [hnul, dec_ne nul_not_digit, e1]
  · unfold seqHeader
    simp [letters_length, crlf]; omega

theorem frameType_letters (t : FType) (r : List Byte) : frameType (t.letters ++ r) = some t := by
  unfold frameType startsWith
  cases t <;> simp [FType.letters, lit]

/-- The frame as described by its header alone. -/
def Frame.hdr (f : Frame) : Frame := { f with payload := [] }

theorem headerOf_seq (f : Frame) (hL : Legal f) (ht : f.type = .seq) :
    headerOf f = some (seqHeader f.channel.toNat f.seqno f.size.toNat) := by
  unfold headerOf
  rw [if_pos ht, buildSeq_eq, u32_of_nonneg _ hL.channel.1 (by have := hL.channel; omega),
    u32_natCast _ hL.seqno, u32_of_nonneg _ hL.size.1 (by have := hL.size; omega)]

theorem headerOf_data (f : Frame) (hL : Legal f) (ht : f.type ≠ .seq) :
    headerOf f = some (dataHeader f.type f.channel.toNat f.msgno.toNat f.more f.seqno f.size.toNat
      (if f.type = .ans then some f.ansno.toNat else none)) := by
  have hd := hL.data ht
  unfold headerOf
  rw [if_neg ht, buildHeader_data _ ht]
  · rw [u32_of_nonneg _ hL.channel.1 (by have := hL.channel; omega),
      u32_natCast _ hL.seqno, u32_of_nonneg _ hL.size.1 (by have := hL.size; omega),
      u32_of_nonneg _ hd.1 (by omega)]
    by_cases ha : f.type = .ans
    · have := hL.ans ha
      simp [ha, this.1]
    · simp [ha]
  · split
    · rename_i ha
      have := hL.ans ha; omega
    · omega

theorem headerOf_line (f : Frame) (hL : Legal f) (header : List Byte)
    (hh : headerOf f = some header) : HeaderLine header := by
  have hc := hL.channel
  have hs := hL.size
  by_cases ht : f.type = .seq
  · rw [headerOf_seq f hL ht] at hh
    cases hh
    exact seqHeader_line _ _ _ (by omega) hL.seqno (by omega)
  · rw [headerOf_data f hL ht] at hh
    cases hh
    have hd := hL.data ht
    refine dataHeader_line _ _ _ _ _ _ _ (by omega) (by omega) hL.seqno (by omega) ?_
    intro a ha
    by_cases hta : f.type = .ans
    · have := hL.ans hta
      simp [hta] at ha
      omega
    · simp [hta] at ha

theorem checkHeader_seq (env : ReadEnv) (st : ReadState) (f : Frame) (hL : Legal f)
    (hS : SeqOk f) (ht : f.type = .seq) (header : List Byte) (hh : headerOf f = some header)
    (hch : env.channelExists f.channel = true) :
    checkHeader env header st = .inl (.frame f st) := by
  have hl := headerOf_line f hL header hh
  rw [headerOf_seq f hL ht] at hh
  cases hh
  have hc := hL.channel
  have hs := hL.size
  obtain ⟨h0, e0, _, _⟩ := hl.shape
  have hlen : 4 < (seqHeader f.channel.toNat f.seqno f.size.toNat).length := by
    simp [seqHeader, letters_length, crlf]; omega
  unfold checkHeader
  rw [if_neg]
  · have hft : frameType (seqHeader f.channel.toNat f.seqno f.size.toNat) = some .seq :=
      frameType_letters .seq _
    rw [hft]
    simp only
    rw [parse_seqHeader _ _ _ (by omega) (hS ht) (by omega) _ _ rfl]
    simp only
    have hcc : ((f.channel.toNat : Nat) : Int) = f.channel := by omega
    have hss : ((f.size.toNat : Nat) : Int) = f.size := by omega
    rw [hcc, hss, if_neg (by rw [hch]; simp; omega), if_pos trivial]
    have := hL.seq ht
    have := hL.notAns (by rw [ht]; simp)
    cases f
    simp_all
  · rintro (h | h)
    · omega
    · exact h ⟨h0, by rw [e0]; simp [crlf]⟩

theorem checkHeader_data (env : ReadEnv) (st : ReadState) (f : Frame) (hL : Legal f)
    (ht : f.type ≠ .seq) (header : List Byte) (hh : headerOf f = some header)
    (hch : env.channelExists f.channel = true)
    (hsq : env.seqnoOk f.channel f.seqno f.size = true) :
    checkHeader env header st = .inr (Frame.hdr f) := by
  have hl := headerOf_line f hL header hh
  rw [headerOf_data f hL ht] at hh
  have hc := hL.channel
  have hs := hL.size
  have hd := hL.data ht
  obtain ⟨h0, e0, _, _⟩ := hl.shape
  generalize han : (if f.type = .ans then some f.ansno.toNat else none) = an at hh
  cases hh
  have hlen : 4 + 5 ≤ (dataHeader f.type f.channel.toNat f.msgno.toNat f.more f.seqno f.size.toNat an).length := by
    simp [dataHeader, letters_length, crlf]
    omega
  unfold checkHeader
  rw [if_neg]
  · have hft : frameType (dataHeader f.type f.channel.toNat f.msgno.toNat f.more f.seqno f.size.toNat an)
        = some f.type := frameType_letters _ _
    rw [hft]
    simp only
    rw [parse_dataHeader _ ht _ _ _ _ _ _ (by omega) (by omega) hL.seqno (by omega) ?_ _ _ rfl]
    · simp only
      have hcc : ((f.channel.toNat : Nat) : Int) = f.channel := by omega
      have hss : ((f.size.toNat : Nat) : Int) = f.size := by omega
      have hmm : ((f.msgno.toNat : Nat) : Int) = f.msgno := by omega
      have haa : ((an.getD 0 : Nat) : Int) = f.ansno := by
        rw [← han]
        by_cases hta : f.type = .ans
        · have := hL.ans hta
          simp [hta]; omega
        · have := hL.notAns hta
          simp [hta, this]
      rw [hcc, hss, hmm, haa, if_neg (by rw [hch]; simp; omega), if_neg ht, if_neg (by omega)]
      have m1 : ((if f.more = true then STAR else DOT) ≠ DOT) ↔ f.more = true := by
        cases f.more <;> decide
      have m2 : ¬ ((if f.more = true then STAR else DOT) ≠ DOT ∧
          (if f.more = true then STAR else DOT) ≠ STAR) := by
        cases f.more <;> decide
      rw [if_neg m2, hsq, if_pos rfl]
      simp only [Frame.hdr, m1]
      simp
    · rw [← han]
      by_cases hta : f.type = .ans
      · have := hL.ans hta
        simp [hta]; omega
      · simp [hta]
  · rintro (h | h)
    · omega
    · exact h ⟨h0, by rw [e0]; simp [crlf]⟩

/-- Prepends a delivered frame to the result of a run. -/
def consFrame {σ : Type} (f : Frame) (x : List Frame × σ × Final) : List Frame × σ × Final :=
  (f :: x.1, x.2.1, x.2.2)

theorem processBuffer_ok (f : Frame) (hL : Legal f) (ht : f.type ≠ .seq) (st : ReadState) :
    processBuffer (Frame.hdr f) (bodyOf f) st = .frame f st := by
  have hd := (hL.data ht).2.2
  unfold processBuffer bodyOf
  rw [if_neg ht]
  have hs : (Frame.hdr f).size.toNat = f.payload.length := by simp [Frame.hdr, hd]
  rw [hs]
  simp [Frame.hdr]

theorem bodyOf_length (f : Frame) (hL : Legal f) (ht : f.type ≠ .seq) :
    (bodyOf f).length = f.size.toNat + 5 := by
  have hd := (hL.data ht).2.2
  unfold bodyOf
  rw [if_neg ht, hd]
  simp [lit, crlf]

theorem drive_body {σ : Type} (envOf : σ → ReadEnv) (handle : σ → Frame → Option σ)
    (s0 s1 : σ) (f : Frame) (hL : Legal f) (ht : f.type ≠ .seq) (hh : handle s0 f = some s1)
    (rest : List Tok) (k : Nat) (n : Nat) (ts : List Tok) (he : .eof ∉ ts) (got : List Byte)
    (ho : got ++ octets ts = bodyOf f) (hne : octets ts ≠ []) (hn : ts.length + k ≤ n) :
    ∃ n', k ≤ n' ∧
      drive envOf handle n s0 ⟨none, some (Frame.hdr f, got, (octets ts).length), 0⟩ (ts ++ rest) =
        consFrame f (drive envOf handle n' s1 ReadState.init rest) := by
  induction n generalizing ts got with
  | zero =>
    have : ts = [] := by cases ts with
      | nil => rfl
      | cons => simp at hn
    subst this
    simp [octets] at hne
  | succ n ih =>
    obtain ⟨b, ts1, h1, h2, h3, h4, h5⟩ := poll_split ts rest he hne
    simp only [drive]
    rw [h1]
    simp only [List.cons_append]
    obtain ⟨ts2, g1, g2, g3⟩ := recv_split (.byte b :: ts1) rest (by simp [h2]) (by rw [h3]; exact hne)
    rcases g3 with ⟨_, _, g3⟩ | ⟨bs, g3, g4, g5⟩
    · exact absurd rfl (g3 b ts1)
    · rw [h3, List.cons_append] at g3
      simp only [getNext, g3]
      by_cases hlen : bs.length = (octets ts).length
      · rw [if_neg (by simpa using hlen)]
        have hz : octets ts2 = [] := by
          have := congrArg List.length g5
          rw [h3] at this
          simp only [List.length_append] at this
          exact List.eq_nil_of_length_eq_zero (by omega)
        have hb : got ++ bs = bodyOf f := by
          rw [← ho, ← h3, ← g5, hz]; simp
        rw [hb, processBuffer_ok f hL ht]
        simp only [hh]
        refine ⟨n, by simp only [List.length_cons] at h5 g2; omega, ?_⟩
        rw [drive_junk _ _ _ _ _ _ _ (octets_nil_junk ts2 g1 hz)]
        rfl
      · rw [if_pos (by simpa using hlen)]
        simp only
        have hl2 : (octets ts2).length = (octets ts).length - bs.length := by
          have := congrArg List.length g5
          rw [h3] at this
          simp only [List.length_append] at this
          omega
        have hne2 : octets ts2 ≠ [] := by
          intro h
          rw [h] at hl2
          have := congrArg List.length g5
          rw [h3, h] at this
          simp at this
          omega
        rw [← hl2]
        refine ih ts2 g1 (got ++ bs) ?_ hne2 (by simp only [List.length_cons] at h5 g2; omega)
        rw [← ho, ← h3, ← g5]; simp

theorem drive_header {σ : Type} (envOf : σ → ReadEnv) (handle : σ → Frame → Option σ)
    (s0 s1 : σ) (f : Frame) (hL : Legal f) (hS : SeqOk f) (header : List Byte)
    (hhd : headerOf f = some header)
    (hch : (envOf s0).channelExists f.channel = true)
    (hsq : f.type ≠ .seq → (envOf s0).seqnoOk f.channel f.seqno f.size = true)
    (hh : handle s0 f = some s1) (bs rest : List Tok) (hbe : .eof ∉ bs)
    (hbo : octets bs = bodyOf f) (k : Nat) (n : Nat) (hs : List Tok) (he : .eof ∉ hs)
    (l1 : List Byte) (ho : l1 ++ octets hs = header) (hne : octets hs ≠ [])
    (ops : Nat) (hn : hs.length + bs.length + k ≤ n) :
    (∃ n', k ≤ n' ∧
      drive envOf handle n s0 ⟨if l1 = [] then none else some l1, none, ops⟩ (hs ++ (bs ++ rest)) =
        consFrame f (drive envOf handle n' s1 ReadState.init rest)) ∨
    (25 < ops + blocks hs ∧
      drive envOf handle n s0 ⟨if l1 = [] then none else some l1, none, ops⟩ (hs ++ (bs ++ rest)) =
        ([], s0, .shutdown)) := by
  have hline := headerOf_line f hL header hhd
  obtain ⟨h0, e0, hlf, hnul⟩ := hline.shape
  have hshort := hline.short
  induction n generalizing hs l1 ops with
  | zero =>
    have : hs = [] := by cases hs with
      | nil => rfl
      | cons => simp at hn
    subst this
    simp [octets] at hne
  | succ n ih =>
    obtain ⟨b, ts1, h1, h2, h3, h4, h5⟩ := poll_split hs (bs ++ rest) he hne
    simp only [drive]
    rw [h1]
    -- the octets still to come end with LF
    have hend : ∃ l, octets hs = l ++ [LF] ∧ LF ∉ l ∧ l1 ++ l = h0 ++ [CR] := by
      rw [e0] at ho
      have hlast := List.eq_nil_or_concat (octets hs)
      rcases hlast with h | ⟨l, x, h⟩
      · exact absurd h hne
      · rw [List.concat_eq_append] at h
        rw [h, ← List.append_assoc] at ho
        have := List.append_inj' ho rfl
        have hx : x = LF := by simpa using this.2
        refine ⟨l, by rw [h, hx], ?_, this.1⟩
        intro hmem
        have : LF ∈ h0 ++ [CR] := by rw [← this.1]; simp [hmem]
        simp only [List.mem_append, List.mem_singleton] at this
        rcases this with h | h
        · exact hlf h
        · revert h; decide
    obtain ⟨l, hl1, hl2, hl3⟩ := hend
    have hfull : header = l1 ++ l ++ [LF] := by rw [e0, ← hl3]
    have hpend : (if l1 = [] then none else some l1 : Option (List Byte)).getD [] = l1 := by
      by_cases h : l1 = [] <;> simp [h]
    have hlen : header.length = l1.length + l.length + 1 := by rw [hfull]; simp; omega
    obtain ⟨ts2, g1, g2, g3⟩ := readlineLoop_split (.byte b :: ts1) (bs ++ rest) (by simp [h2]) l hl2
      (by rw [h3, hl1]) (98 - l1.length) (by omega) true l1
    simp only [List.cons_append] at g3
    have hts2 : ts2.length ≤ n - bs.length - k ∧ bs.length + k ≤ n := by
      simp only [List.length_cons] at g2 h5; omega
    simp only [List.cons_append, getNext, hpend]
    rw [if_neg (by omega)]
    rcases g3 with ⟨g3, g4⟩ | ⟨a, b', g3, g4, g5, g6, g7⟩
    · -- the line is complete
      rw [g3]
      simp only
      rw [← hfull]
      by_cases ht : f.type = .seq
      · rw [checkHeader_seq _ _ f hL hS ht header hhd hch]
        simp only [hh]
        have hb0 : octets bs = [] := by rw [hbo]; simp [bodyOf, ht]
        refine Or.inl ⟨n, by omega, ?_⟩
        rw [← List.append_assoc, drive_junk _ _ _ _ _ (ts2 ++ bs) rest
          (octets_nil_junk _ (by simp [g1, hbe]) (by rw [octets_append, g4, hb0]; rfl))]
        rfl
      · rw [checkHeader_data _ _ f hL ht header hhd hch (hsq ht)]
        simp only
        have hsz := hL.size
        unfold readPayload
        have hsize : (Frame.hdr f).size = f.size := rfl
        rw [hsize, if_neg (by omega), if_neg (by omega)]
        have hbl := bodyOf_length f hL ht
        have hocts : octets (ts2 ++ bs) = bodyOf f := by rw [octets_append, g4, hbo]; rfl
        have hnee : octets (ts2 ++ bs) ≠ [] := by
          intro h
          rw [hocts] at h
          rw [h] at hbl
          simp at hbl
        obtain ⟨ts3, q1, q2, q3⟩ := recv_split (ts2 ++ bs) rest (by simp [g1, hbe]) hnee
        rw [hocts, hbl, List.append_assoc] at q3
        rw [List.length_append] at q2
        rcases q3 with ⟨q3, q4, _⟩ | ⟨xs, q3, q4, q5⟩
        · simp only [q3]
          have hlq : f.size.toNat + 5 = (octets ts3).length := by rw [q4, hbl]
          rw [hlq]
          exact Or.inl (drive_body envOf handle s0 s1 f hL ht hh rest k n ts3 q1 []
            (by simpa using q4) (by rw [q4, ← hocts]; exact hnee) (by omega))
        · simp only [q3]
          have hll : xs.length + (octets ts3).length = f.size.toNat + 5 := by
            rw [← hbl, ← q5]; simp
          by_cases hx : xs.length = f.size.toNat + 5
          · rw [if_pos hx]
            have hz : octets ts3 = [] := List.eq_nil_of_length_eq_zero (by omega)
            have hxs : xs = bodyOf f := by rw [← q5, hz]; simp
            rw [hxs, processBuffer_ok f hL ht]
            simp only [hh]
            refine Or.inl ⟨n, by omega, ?_⟩
            rw [drive_junk _ _ _ _ _ _ _ (octets_nil_junk ts3 q1 hz)]
            rfl
          · rw [if_neg hx]
            simp only
            have hlq : f.size.toNat + 5 - xs.length = (octets ts3).length := by omega
            rw [hlq]
            exact Or.inl (drive_body envOf handle s0 s1 f hL ht hh rest k n ts3 q1 xs q5
              (by intro h; rw [h] at hll; simp at hll; omega) (by omega))
    · -- interrupted
      rw [g3]
      simp only
      have hane : a ≠ [] := g7 b ts1 rfl
      have hcond : l1 ++ a ≠ [] := by simp [hane]
      have hnulA : ∀ c ∈ l1 ++ a, (decide (c ≠ NUL)) = true := by
        intro c hc
        have hmem : c ∈ h0 ++ [CR] := by
          rw [← hl3, g4]
          simp only [List.mem_append] at hc ⊢
          rcases hc with hc | hc <;> simp [hc]
        simp only [ne_eq, decide_not, Bool.not_eq_true', decide_eq_false_iff_not]
        rintro rfl
        simp only [List.mem_append, List.mem_singleton] at hmem
        rcases hmem with h | h
        · exact hnul h
        · revert h; decide
      have htw : (l1 ++ a).takeWhile (fun c => decide (c ≠ NUL)) = l1 ++ a :=
        takeWhile_all _ _ hnulA
      rw [if_neg hcond, htw]
      by_cases hops : ops + 1 > 25
      · rw [if_pos hops]
        exact Or.inr ⟨by omega, rfl⟩
      · rw [if_neg hops]
        have hi := ih ts2 g1 (l1 ++ a) (by rw [g5, hfull, g4]; simp) (by rw [g5]; simp) (ops + 1)
          (by omega)
        rw [if_neg hcond] at hi
        rcases hi with hi | ⟨hi1, hi2⟩
        · exact Or.inl hi
        · exact Or.inr ⟨by omega, hi2⟩

theorem drive_delivers {σ : Type} (envOf : σ → ReadEnv) (handle : σ → Frame → Option σ)
    (frames : List Frame) (script : List Tok) (hd : Delivers frames script)
    (hL : ∀ f ∈ frames, Legal f ∧ SeqOk f) (s0 s' : σ)
    (ha : Accepts envOf handle s0 frames s') (n : Nat) (hn : script.length ≤ n) :
    drive envOf handle n s0 ReadState.init script = (frames, s', .idle ReadState.init) := by
  induction hd generalizing s0 n with
  | nil junk hj =>
    have hz := drive_junk envOf handle n s0 ReadState.init junk [] hj
    rw [List.append_nil] at hz
    rw [hz]
    have : s0 = s' := ha
    subst this
    cases n <;> simp [drive, poll]
  | cons f fs lead hs bs rest header hl hhd hoc hb he hbo hr ih =>
    obtain ⟨a1, a2, s1, a3, a4⟩ := ha
    obtain ⟨l1, l2⟩ := hL f (by simp)
    simp only [List.length_append] at hn
    rw [List.append_assoc, List.append_assoc, drive_junk _ _ _ _ _ _ _ hl]
    have hhl := headerOf_line f l1 header hhd
    obtain ⟨h0, e0, _, _⟩ := hhl.shape
    have hdr := drive_header envOf handle s0 s1 f l1 l2 header hhd a1 a2 a3 bs rest
      (by intro h; exact he (by simp [h])) hbo rest.length n hs (by intro h; exact he (by simp [h]))
      [] (by simpa using hoc) (by rw [hoc, e0]; simp) 0 (by omega)
    simp only [if_true] at hdr
    rcases hdr with ⟨n', hn', hdr⟩ | ⟨hbad, _⟩
    · have hi := ih (fun g hg => hL g (by simp [hg])) s1 a4 n' hn'
      show drive envOf handle n s0 ⟨none, none, 0⟩ _ = _
      rw [hdr, hi]
      rfl
    · omega

/-- Cutting a script at a given octet. -/
theorem split_octets (ts : List Tok) (a b : List Byte) (h : octets ts = a ++ b) :
    ∃ t1 t2, ts = t1 ++ t2 ∧ octets t1 = a ∧ octets t2 = b := by
  induction ts generalizing a with
  | nil =>
    simp only [octets, List.nil_eq, List.append_eq_nil_iff] at h
    exact ⟨[], [], rfl, by rw [h.1]; rfl, by rw [h.2]; rfl⟩
  | cons t ts ih =>
    cases a with
    | nil => exact ⟨[], t :: ts, rfl, rfl, h⟩
    | cons x a =>
      cases t with
      | byte c =>
        simp only [octets, List.cons_append, List.cons.injEq] at h
        obtain ⟨t1, t2, e, h1, h2⟩ := ih a h.2
        exact ⟨.byte c :: t1, t2, by simp [e], by simp [octets, h1, h.1], h2⟩
      | cut =>
        obtain ⟨t1, t2, e, h1, h2⟩ := ih (x :: a) h
        exact ⟨.cut :: t1, t2, by simp [e], by simp [octets, h1], h2⟩
      | again =>
        obtain ⟨t1, t2, e, h1, h2⟩ := ih (x :: a) h
        exact ⟨.again :: t1, t2, by simp [e], by simp [octets, h1], h2⟩
      | eof =>
        obtain ⟨t1, t2, e, h1, h2⟩ := ih (x :: a) h
        exact ⟨.eof :: t1, t2, by simp [e], by simp [octets, h1], h2⟩

/-- Safety for every segmentation. -/
theorem drive_prefix {σ : Type} (envOf : σ → ReadEnv) (handle : σ → Frame → Option σ)
    (frames : List Frame) (script : List Tok) (he : .eof ∉ script)
    (ho : wire frames = some (octets script))
    (hL : ∀ f ∈ frames, Legal f ∧ SeqOk f) (s0 s' : σ)
    (ha : Accepts envOf handle s0 frames s') (n : Nat) (hn : script.length ≤ n) :
    drive envOf handle n s0 ReadState.init script = (frames, s', .idle ReadState.init) ∨
    ∃ fs s1, fs <+: frames ∧ drive envOf handle n s0 ReadState.init script = (fs, s1, .shutdown) := by
  induction frames generalizing s0 n script with
  | nil =>
    have hj := octets_nil_junk script he (by simpa [wire] using ho.symm)
    have hz := drive_junk envOf handle n s0 ReadState.init script [] hj
    rw [List.append_nil] at hz
    rw [hz]
    have : s0 = s' := ha
    subst this
    left
    cases n <;> simp [drive, poll]
  | cons f fs ih =>
    obtain ⟨header, hhd⟩ : ∃ header, headerOf f = some header := by
      cases h : headerOf f with
      | none => simp [wire, h] at ho
      | some x => exact ⟨x, rfl⟩
    obtain ⟨r, hr⟩ : ∃ r, wire fs = some r := by
      cases h : wire fs with
      | none => simp [wire, h] at ho
      | some x => exact ⟨x, rfl⟩
    simp only [wire, hhd, hr, Option.bind_eq_bind, Option.bind_some, Option.pure_def,
      Option.some.injEq] at ho
    have ho := ho.symm
    obtain ⟨a1, a2, s1, a3, a4⟩ := ha
    obtain ⟨l1, l2⟩ := hL f (by simp)
    obtain ⟨hs, t2, rfl, o1, o2⟩ := split_octets script _ _ ho
    obtain ⟨bs, rest, rfl, o3, o4⟩ := split_octets t2 _ _ o2
    simp only [List.mem_append, not_or] at he
    simp only [List.length_append] at hn
    have hhl := headerOf_line f l1 header hhd
    obtain ⟨h0, e0, _, _⟩ := hhl.shape
    have hdr := drive_header envOf handle s0 s1 f l1 l2 header hhd a1 a2 a3 bs rest
      he.2.1 o3 rest.length n hs he.1 [] (by simpa using o1) (by rw [o1, e0]; simp) 0 (by omega)
    simp only [if_true] at hdr
    rcases hdr with ⟨n', hn', hdr⟩ | ⟨_, hdr⟩
    · have hi := ih rest he.2.2 (by rw [hr, o4]) (fun g hg => hL g (by simp [hg])) s1 a4 n' hn'
      show drive envOf handle n s0 ⟨none, none, 0⟩ _ = _ ∨ ∃ fs' s2, _ ∧ drive envOf handle n s0 ⟨none, none, 0⟩ _ = _
      rw [hdr]
      rcases hi with hi | ⟨fs', s2, hp, hi⟩
      · left; rw [hi]; rfl
      · right
        rw [hi]
        exact ⟨f :: fs', s2, List.cons_prefix_cons.2 ⟨rfl, hp⟩, rfl⟩
    · right
      exact ⟨[], s0, List.nil_prefix, hdr⟩

end Verif.Proof
