import Verif.Proof.Stream
import Verif.Proof.SendBuffer
/-!
# C02 … C06 — frames on the wire
-/
namespace Verif.Props
open Verif.Model Verif.Spec Verif.Proof

/-! ## C02 — header build / parse round trip -/

/-- The keyword of a type of frame. -/
def typeKeyword : FType → List Byte
  | .msg => lit "MSG"
  | .rpy => lit "RPY"
  | .ans => lit "ANS"
  | .err => lit "ERR"
  | .nul => lit "NUL"
  | .seq => lit "SEQ"

/-- **C02 (text)**: the header written for a data frame is the line prescribed by RFC 3080:
type, channel, msgno, continuation mark, seqno, size and (ANS only) ansno, in decimal, separated by
single spaces and ended by CR LF. -/
theorem C02_header_text (type : FType) (ht : type ≠ .seq) (channel msgno size ansno : Int)
    (more : Bool) (seqno : Nat)
    (hc : 0 ≤ channel ∧ channel < 2 ^ 31) (hm : 0 ≤ msgno ∧ msgno < 2 ^ 31)
    (hq : seqno < 2 ^ 32) (hz : 0 ≤ size ∧ size < 2 ^ 31) (ha : 0 ≤ ansno ∧ ansno < 2 ^ 31) :
    ∃ c m q z a, IsNumeral channel.toNat c ∧ IsNumeral msgno.toNat m ∧ IsNumeral seqno q ∧
      IsNumeral size.toNat z ∧ IsNumeral ansno.toNat a ∧
      buildHeader type channel msgno more seqno size (if type = .ans then ansno else -1) none none =
        some (typeKeyword type ++ lit " " ++ c ++ lit " " ++ m ++ lit " " ++
          lit (if more then "*" else ".") ++ lit " " ++ q ++ lit " " ++ z ++
          (if type = .ans then lit " " ++ a else []) ++ lit "\r\n") := by
  refine ⟨_, _, _, _, _, dec_isNumeral _, dec_isNumeral _, dec_isNumeral _, dec_isNumeral _,
    dec_isNumeral _, ?_⟩
  rw [buildHeader_data type ht]
  · rw [u32_of_nonneg channel hc.1 (by omega), u32_of_nonneg msgno hm.1 (by omega),
      u32_natCast seqno (by omega), u32_of_nonneg size hz.1 (by omega)]
    have l0 : typeKeyword type = type.letters := by cases type <;> rfl
    rw [l0]
    have l1 : lit " " = [SP] := by decide
    have l2 : lit "\r\n" = crlf := by decide
    have l3 : lit (if more then "*" else ".") = [if more then STAR else DOT] := by
      cases more <;> decide
    by_cases hta : type = .ans
    · simp [dataHeader, hta, ha.1, l1, l2, l3]
    · simp [dataHeader, hta, l1, l2, l3]
  · split <;> omega

/-- **C02 (round trip)**: the receiver's parser, applied to the line written by the sender, recovers
every field. -/
theorem C02_header_round_trip (type : FType) (ht : type ≠ .seq) (channel msgno size ansno : Int)
    (more : Bool) (seqno : Nat)
    (hc : 0 ≤ channel ∧ channel < 2 ^ 31) (hm : 0 ≤ msgno ∧ msgno < 2 ^ 31)
    (hq : seqno < 2 ^ 32) (hz : 0 ≤ size ∧ size < 2 ^ 31) (ha : 0 ≤ ansno ∧ ansno < 2 ^ 31) :
    ∃ line, buildHeader type channel msgno more seqno size
        (if type = .ans then ansno else -1) none none = some line ∧
      frameType line = some type ∧
      ∃ pos, getHeaderData type (line.drop 4 ++ [NUL]) ((line.length : Int) - 4) =
        .ok pos (if more then STAR else DOT)
          { type, channel, msgno, more := false, seqno, size,
            ansno := if type = .ans then ansno else 0, payload := [] } := by
  have hb := buildHeader_data type ht channel msgno more seqno size
    (if type = .ans then ansno else -1) (by split <;> omega)
  rw [u32_of_nonneg channel hc.1 (by omega), u32_of_nonneg msgno hm.1 (by omega),
    u32_natCast seqno (by omega), u32_of_nonneg size hz.1 (by omega)] at hb
  refine ⟨_, hb, frameType_letters _ _, ?_⟩
  have hp := parse_dataHeader type ht channel.toNat msgno.toNat more seqno size.toNat
    (if 0 ≤ (if type = .ans then ansno else -1) then some (if type = .ans then ansno else -1).toNat
      else none)
    (by omega) (by omega) (by omega) (by omega)
    (by
      by_cases hta : type = .ans
      · simp [hta, ha.1]; omega
      · simp [hta]) [NUL] _ rfl
  have e1 : ((channel.toNat : Nat) : Int) = channel := by omega
  have e2 : ((msgno.toNat : Nat) : Int) = msgno := by omega
  have e3 : ((size.toNat : Nat) : Int) = size := by omega
  have e4 : (((if 0 ≤ (if type = .ans then ansno else -1)
      then some (if type = .ans then ansno else -1).toNat else none).getD 0 : Nat) : Int) =
      (if type = .ans then ansno else 0) := by
    by_cases hta : type = .ans
    · simp [hta, ha.1]; omega
    · simp [hta]
  rw [e1, e2, e3, e4] at hp
  exact ⟨_, hp⟩

/-- **C02 (accepted)**: a receiver that knows the channel and whose window admits the frame accepts
the line and goes on to read the payload of a frame with exactly the fields sent, the continuation
flag included (sizes above 2^31-9 make the receiver's `size + 6` overflow, see C09). -/
theorem C02_header_accepted (env : ReadEnv) (st : ReadState) (type : FType) (ht : type ≠ .seq)
    (channel msgno size ansno : Int) (more : Bool) (seqno : Nat)
    (hc : 0 ≤ channel ∧ channel < 2 ^ 31) (hm : 0 ≤ msgno ∧ msgno < 2 ^ 31)
    (hq : seqno < 2 ^ 32) (hz : 0 ≤ size ∧ size < 2 ^ 31 - 8) (ha : 0 ≤ ansno ∧ ansno < 2 ^ 31)
    (hch : env.channelExists channel = true) (hwin : env.seqnoOk channel seqno size = true) :
    ∃ line, buildHeader type channel msgno more seqno size
        (if type = .ans then ansno else -1) none none = some line ∧
      checkHeader env line st = .inr
        { type, channel, msgno, more, seqno, size,
          ansno := if type = .ans then ansno else 0, payload := [] } := by
  let f : Frame := { type, channel, msgno, more, seqno, size,
                     ansno := if type = .ans then ansno else 0,
                     payload := List.replicate size.toNat 0 }
  have hL : Legal f := by
    refine ⟨⟨hc.1, by simp [f]; omega⟩, by simp [f]; omega, ⟨hz.1, by simp [f]; omega⟩, ?_, ?_, ?_, ?_⟩
    · intro _; simp [f]; omega
    · intro h
      have h' : type = .ans := h
      simp [f, h']; omega
    · intro h
      have h' : type ≠ .ans := h
      simp [f, h']
    · intro h; exact absurd h ht
  have hh : headerOf f = some (dataHeader type channel.toNat msgno.toNat more seqno size.toNat
      (if type = .ans then some (if type = .ans then ansno else 0).toNat else none)) :=
    headerOf_data f hL ht
  refine ⟨_, ?_, checkHeader_data env st f hL ht _ hh hch hwin⟩
  rw [← hh]
  unfold headerOf
  rw [if_neg (show f.type ≠ .seq from ht)]
  by_cases h : type = .ans <;> simp [f, h]

example : (fun (e : ReadEnv) => e.channelExists 7 = true ∧ e.seqnoOk 7 4294967295 100 = true)
    ⟨fun c => c == 7, fun _ _ s => decide (s ≤ 4096)⟩ := by decide

example : buildHeader .ans 7 12 true 4294967295 100 3 none none
    = some (lit "ANS 7 12 * 4294967295 100 3\r\n") := by decide +kernel

/-! ## C03 — SEQ round trip -/

/-- **C03 (full statement, violated)**: every SEQ frame is understood by the receiver as it was meant. -/
def C03_statement : Prop :=
  ∀ channel ackno window : Nat, channel < 2 ^ 31 → ackno < 2 ^ 32 → 1 ≤ window → window < 2 ^ 31 →
    ∃ line, buildSeq channel ackno window = some line ∧
      ∃ pos mc, getHeaderData .seq (line.drop 4 ++ [NUL]) ((line.length : Int) - 4) =
        .ok pos mc { type := .seq, channel, msgno := 0, more := false, seqno := ackno,
                     size := window, ansno := 0, payload := [] }

/-- **C03 (partial)**: holds for every ackno except 2^32-1 and 2^32-2. -/
theorem C03_seq_round_trip_partial (channel ackno window : Nat) (hc : channel < 2 ^ 31)
    (ha : ackno < 2 ^ 32 - 2) (hw : window < 2 ^ 31) :
    ∃ line, buildSeq channel ackno window = some line ∧ frameType line = some .seq ∧
      ∃ pos mc, getHeaderData .seq (line.drop 4 ++ [NUL]) ((line.length : Int) - 4) =
        .ok pos mc { type := .seq, channel, msgno := 0, more := false, seqno := ackno,
                     size := window, ansno := 0, payload := [] } := by
  have hb := buildSeq_eq channel ackno window
  rw [u32_natCast _ (by omega), u32_natCast _ (by omega), u32_natCast _ (by omega)] at hb
  exact ⟨_, hb, frameType_letters .seq _, _, _,
    parse_seqHeader _ _ _ (by omega) (by omega) (by omega) _ _ rfl⟩

/-- **C03 (text)**: the line is the keyword, channel, ackno and window in decimal, separated by single spaces and ended by CR LF, for every
ackno. -/
theorem C03_seq_text (channel ackno window : Nat) (hc : channel < 2 ^ 31) (ha : ackno < 2 ^ 32) (hw : window < 2 ^ 31) :
    ∃ c a w, IsNumeral channel c ∧ IsNumeral ackno a ∧ IsNumeral window w ∧
      buildSeq channel ackno window = some (lit "SEQ " ++ c ++ lit " " ++ a ++ lit " " ++ w ++ lit "\r\n") := by
  have hb := buildSeq_eq channel ackno window
  rw [u32_natCast _ (by omega), u32_natCast _ (by omega), u32_natCast _ (by omega)] at hb
  refine ⟨_, _, _, dec_isNumeral _, dec_isNumeral _, dec_isNumeral _, ?_⟩
  rw [hb]
  have l1 : lit " " = [SP] := by decide
  have l2 : lit "\r\n" = crlf := by decide
  have l3 : lit "SEQ " = FType.letters .seq ++ [SP] := by decide
  simp [seqHeader, l1, l2, l3]

example : buildSeq 7 4294967295 4096 = some (lit "SEQ 7 4294967295 4096\r\n") := by decide +kernel

/-- **C03 (violation, all channels and windows)**: an ackno of 2^32-2 makes the receiver treat the
frame as a wrong header (and close the connection); an ackno of 2^32-1 makes it silently use a
window of 0. -/
theorem C03_seq_round_trip_fails (channel window : Nat) (hc : channel < 2 ^ 31)
    (hw : window < 2 ^ 31) :
    (∃ line, buildSeq channel 4294967294 window = some line ∧
      getHeaderData .seq (line.drop 4 ++ [NUL]) ((line.length : Int) - 4) = .wrong) ∧
    (∃ line, buildSeq channel 4294967295 window = some line ∧
      getHeaderData .seq (line.drop 4 ++ [NUL]) ((line.length : Int) - 4) =
        .sentinel { type := .seq, channel, msgno := 0, more := false, seqno := 4294967295,
                    size := 0, ansno := 0, payload := [] }) := by
  constructor
  · have hb := buildSeq_eq channel 4294967294 window
    rw [u32_natCast _ (by omega), u32_natCast window (by omega)] at hb
    refine ⟨_, hb, ?_⟩
    exact parse_seqHeader_wrong _ _ (by omega) _ _ rfl
  · have hb := buildSeq_eq channel 4294967295 window
    rw [u32_natCast _ (by omega), u32_natCast window (by omega)] at hb
    refine ⟨_, hb, ?_⟩
    exact parse_seqHeader_sentinel _ _ (by omega) _ _ rfl

/-- The full statement is false of the code. -/
theorem C03_statement_false : ¬ C03_statement := by
  intro h
  obtain ⟨line, h1, pos, mc, h2⟩ := h 0 4294967294 4096 (by omega) (by omega) (by omega) (by omega)
  obtain ⟨⟨line', h3, h4⟩, _⟩ := C03_seq_round_trip_fails 0 4096 (by omega) (by omega)
  have : line = line' := by
    have := h1.symm.trans h3
    simpa using this
  subst this
  rw [h4] at h2
  cases h2

example : buildSeq 3 4294967293 4096 = some (lit "SEQ 3 4294967293 4096\r\n") := by decide +kernel

/-! ## C04 — reading frames does not depend on segmentation -/

/-- **C04 (partial)**: for every list of legal frames and every way the network splits their octets,
with at most 25 would-blocks inside any single header line, the reader loop hands over exactly the
frames sent, in order, and is left idle with nothing pending. `envOf`/`handle` abstract the rest
of the library, which must accept the frames (`Accepts`). Missing for the full property:
header lines interrupted more than 25 times (see `C04_drip_feed_closes`) and the two SEQ acknos
of C03. -/
theorem C04_segmentation_partial {σ : Type} (envOf : σ → ReadEnv) (handle : σ → Frame → Option σ)
    (frames : List Frame) (script : List Tok) (hd : Delivers frames script)
    (hL : ∀ f ∈ frames, Legal f ∧ SeqOk f) (s0 s' : σ)
    (ha : Accepts envOf handle s0 frames s') :
    drive envOf handle script.length s0 ReadState.init script =
      (frames, s', .idle ReadState.init) :=
  drive_delivers envOf handle frames script hd hL s0 s' ha _ (Nat.le_refl _)

/-- **C04 (safety, every segmentation)**: whatever the segmentation, with no bound on interruptions,
the frames handed over are a prefix of the frames sent; if they are not all of them the connection
was shut down; and no out-of-bounds access happens. -/
theorem C04_prefix {σ : Type} (envOf : σ → ReadEnv) (handle : σ → Frame → Option σ)
    (frames : List Frame) (script : List Tok) (he : .eof ∉ script)
    (ho : wire frames = some (octets script))
    (hL : ∀ f ∈ frames, Legal f ∧ SeqOk f) (s0 s' : σ)
    (ha : Accepts envOf handle s0 frames s') :
    drive envOf handle script.length s0 ReadState.init script =
        (frames, s', .idle ReadState.init) ∨
    ∃ fs s1, fs <+: frames ∧
      drive envOf handle script.length s0 ReadState.init script = (fs, s1, .shutdown) :=
  drive_prefix envOf handle frames script he ho hL s0 s' ha _ (Nat.le_refl _)

/-- A rest-of-library that accepts everything, for the examples. -/
def anyEnv : Unit → ReadEnv := fun _ => ⟨fun _ => true, fun _ _ _ => true⟩

/-- A small frame for the examples. -/
def helloFrame : Frame :=
  { type := .msg, channel := 1, msgno := 0, more := false, seqno := 0, size := 5, ansno := 0,
    payload := lit "hello" }

/-- The script that delivers octets one by one, with a would-block after each. -/
def drip : List Byte → List Tok
  | [] => []
  | b :: bs => .byte b :: .again :: drip bs

/-- **C04 (violation)**: the same legal frame, when each octet of a 27-octet header line arrives in
its own segment, closes the connection instead of being delivered. -/
theorem C04_drip_feed_closes :
    let f : Frame := { helloFrame with msgno := 1000000000, channel := 1000000, seqno := 0 }
    Legal f ∧ SeqOk f ∧
    ∃ h, headerOf f = some h ∧
      drive anyEnv (fun s _ => some s) 200 () ReadState.init
        (drip (h ++ bodyOf f)) = ([], (), .shutdown) ∧
      drive anyEnv (fun s _ => some s) 200 () ReadState.init
        ((h ++ bodyOf f).map Tok.byte) = ([f], (), .idle ReadState.init) := by
  refine ⟨⟨by decide, by decide, by decide, by decide, by decide, by decide, by decide⟩, by
    intro h; exact absurd h (by decide), lit "MSG 1000000 1000000000 . 0 5\r\n", by decide +kernel, ?_, ?_⟩
  · decide +kernel
  · decide +kernel

-- two frames delivered in awkward pieces meet the hypotheses of the theorem and are delivered
example : drive anyEnv (fun s _ => some s) 200 () ReadState.init
    ((lit "MSG 1 0 . 0 5\r").map .byte ++ [.again] ++ (lit "\nhe").map .byte ++ [.cut] ++
      (lit "ll").map .byte ++ [.again, .again] ++ (lit "oEND\r\nSEQ 1 5 409").map .byte ++ [.again] ++
      (lit "6\r\n").map .byte)
    = ([helloFrame, { Frame.zero .seq with channel := 1, seqno := 5, size := 4096 }], (),
        .idle ReadState.init) := by decide +kernel

example : Delivers [helloFrame]
    ([.again] ++ ((lit "MSG 1 0 . 0 5\r").map .byte ++ [.again] ++ (lit "\n").map .byte) ++
      ((lit "hel").map .byte ++ [.again, .again] ++ (lit "loEND\r\n").map .byte) ++ []) :=
  .cons helloFrame [] _ _ _ _ (lit "MSG 1 0 . 0 5\r\n") (by decide) (by decide +kernel)
    (by decide +kernel) (by decide +kernel) (by decide +kernel) (by decide +kernel) (.nil [] (by simp))

/-- **C04 (violation, spurious readiness)**: if the reader is invoked while no octet is available and
a payload is incomplete (which a level-triggered wait avoids on plain sockets, but a layered
transport such as TLS does not), the connection is closed. -/
theorem C04_spurious_wakeup_closes (env : ReadEnv) (f : Frame) (got : List Byte) (remaining : Nat)
    (ops : Nat) (rest : List Tok) :
    (getNext env ⟨none, some (f, got, remaining), ops⟩ (.again :: rest)).1 = .shutdown := by
  simp [getNext, recv]

/-! ## C05 — the send buffer is never overrun -/

/-- **C05**: for every frame type, field values (any C ints), payload, and current buffer size at least
the initial one, the frame is built (never refused) and all octets written — header, payload,
trailer and the terminating NUL — fit in the buffer in use; the buffer never shrinks, so the
hypothesis is preserved from one packet to the next. -/
theorem C05_send_buffer (type : FType) (channel msgno : Int) (more : Bool) (seqno : Nat) (ansno : Int)
    (payload : List Byte) (bufferSize : Nat) (hb : initialBufferSize ≤ bufferSize) :
    ∃ octets, (buildPacket type channel msgno more seqno ansno payload bufferSize).2 = .built octets ∧
      octets.length + 1 ≤ (buildPacket type channel msgno more seqno ansno payload bufferSize).1 ∧
      initialBufferSize ≤ (buildPacket type channel msgno more seqno ansno payload bufferSize).1 := by
  unfold buildPacket buildFrame
  simp only [initialBufferSize] at hb ⊢
  obtain ⟨h, e, hl⟩ := buildHeader_length type channel msgno more seqno
    (announcedSize payload.length none none) (if type = .ans then ansno else -1)
  have hc := check_ge payload.length bufferSize
  rw [e]
  have l5 : (lit "END" ++ crlf).length = 5 := by decide
  by_cases hp : payload.length > 0
  · simp only [hp, if_true]
    rw [if_neg (by omega)]
    refine ⟨_, rfl, ?_, by omega⟩
    rw [List.append_assoc, List.length_append, l5, List.length_append]
    omega
  · simp only [hp, if_false]
    rw [if_neg (by omega)]
    refine ⟨_, rfl, ?_, by omega⟩
    rw [List.append_assoc, List.length_append, l5, List.length_append]
    omega

/-- **C05 (SEQ)**: a SEQ frame with its NUL fits in the 50 octet buffer the reader uses for it
(src/vortex_reader.c:161-168), for all field values. -/
theorem C05_seq_buffer (channel ackno window : Int) :
    ∃ octets, buildSeq channel ackno window = some octets ∧ octets.length + 1 ≤ 50 := by
  refine ⟨_, buildSeq_eq _ _ _, ?_⟩
  have a1 := dec_length_le (u32 channel) (u32_lt _)
  have a2 := dec_length_le (u32 ackno) (u32_lt _)
  have a3 := dec_length_le (u32 window) (u32_lt _)
  unfold seqHeader
  simp [letters_length, crlf]
  omega

/-- **C05 (caller's buffer, header)**: with a buffer of any size, a header that does not fit with
its terminator is refused. -/
theorem C05_header_refused (type : FType) (channel msgno : Int) (more : Bool) (seqno : Nat)
    (ansno : Int) (payload h : List Byte) (bufferSize : Nat)
    (hh : buildHeader type channel msgno more seqno (announcedSize payload.length none none)
      (if type = .ans then ansno else -1) none none = some h) :
    buildFrame type channel msgno more seqno ansno none none payload bufferSize = .tooSmall ↔
      bufferSize < h.length + 1 := by
  unfold buildFrame
  simp only [hh]
  by_cases hb : h.length ≥ bufferSize
  · rw [if_pos hb]; simp; omega
  · rw [if_neg hb]; simp; omega

/-- **C05 (caller's buffer, violation)**: for a buffer given by the caller of the frame builder that
is the only check made: when header and terminator fit, the payload is copied whatever its
size, here 100 octets and more into a buffer of 40. -/
theorem C05_caller_buffer_overrun (payload : List Byte) (hp : 100 ≤ payload.length)
    (hp2 : payload.length < 1000) :
    ∃ octets, buildFrame .msg 1 1 false 1 0 none none payload 40 = .built octets ∧
      40 < octets.length := by
  obtain ⟨h, e⟩ : ∃ h, buildHeader .msg 1 1 false 1 (announcedSize payload.length none none) (-1)
      none none = some h := ⟨_, buildHeader_data .msg (by decide) 1 1 false 1 _ (-1) (by decide)⟩
  have e2 := buildHeader_data .msg (by decide) 1 1 false 1
    (announcedSize payload.length none none) (-1) (by decide)
  rw [e] at e2
  have hl : h.length ≤ 39 := by
    have : u32 (announcedSize payload.length none none) < 4294967296 := u32_lt _
    have a1 := dec_length_le _ this
    have b1 : (dec (u32 1)).length = 1 := by decide +kernel
    rw [Option.some.inj e2]
    simp only [dataHeader, List.length_append, List.length_cons, letters_length, b1]
    simp [crlf]
    omega
  refine ⟨h ++ payload ++ lit "END" ++ crlf, ?_, ?_⟩
  · unfold buildFrame
    simp only [show (if FType.msg = .ans then (0:Int) else -1) = -1 from by decide, e]
    rw [if_neg (by omega)]
  · simp only [List.length_append]; omega

example : initialBufferSize ≤ 4196 ∧
    (buildPacket .ans 2147483647 2147483647 true 4294967295 2147483647 (List.replicate 5000 65)
      4196).1 = 8292 := by decide +kernel

end Verif.Props
