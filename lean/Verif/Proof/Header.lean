import Verif.Model.Parse
import Verif.Proof.Itoa
/-! Helper lemmas for header building and parsing. -/
namespace Verif.Proof
open Verif.Model Verif.Spec

theorem dec_length_pos (v : Nat) : 0 < (dec v).length := by
  simpa [dec] using revDigits_ne_nil v |> List.length_pos_iff.2

theorem dec_length_le (v : Nat) (h : v < 4294967296) : (dec v).length ≤ 10 := by
  simpa [dec] using revDigits_length_u32 v h

theorem u32_lt (x : Int) : u32 x < 4294967296 := by unfold u32; omega

theorem u32_of_nonneg (x : Int) (h0 : 0 ≤ x) (h1 : x < 4294967296) : u32 x = x.toNat := by
  unfold u32; omega

theorem u32_natCast (n : Nat) (h : n < 4294967296) : u32 (n : Int) = n := by unfold u32; omega

theorem i32_of_range (x : Int) (h0 : -2147483648 ≤ x) (h1 : x < 2147483648) : i32 x = x := by
  unfold i32; omega

theorem itoaStr_eq (x : Int) : itoaStr x = some (dec (u32 x)) := by
  unfold itoaStr
  have hl := dec_length_le (u32 x) (u32_lt x)
  have hp := dec_length_pos (u32 x)
  rw [itoa_ok (u32 x) _ 10 (by simpa [dec] using hl) (by simp [dec] at hl; omega) (by simp)]
  simp only
  rw [if_neg (by omega)]
  simp

theorem dec_digit (v : Nat) : ∀ b ∈ dec v, IsDigit b := (dec_isNumeral v).digits

theorem digitsVal_eq (ds : List Byte) : digitsVal ds = decValue ds := by
  unfold digitsVal
  rw [← List.reverse_reverse ds]
  generalize ds.reverse = l
  induction l with
  | nil => rfl
  | cons x xs ih =>
    rw [List.reverse_cons, List.foldl_append, decValue_append, ih]
    rfl

theorem digitsVal_dec (v : Nat) : digitsVal (dec v) = v := by rw [digitsVal_eq, dec_value]

/-- A character that ends a field. -/
def IsDelim (c : Byte) : Prop := c = SP ∨ c = LF ∨ c = CR

theorem digit_not_delim {c : Byte} (h : IsDigit c) : ¬ (c = SP ∨ c = LF ∨ c = CR) := by
  simp only [IsDigit] at h
  rintro (rfl | rfl | rfl) <;> revert h <;> decide

theorem isDigitB_iff (c : Byte) : isDigitB c = true ↔ IsDigit c := by
  simp [isDigitB, IsDigit]

theorem scanField_digits (ds : List Byte) (hd : ∀ b ∈ ds, IsDigit b) (c : Byte) (rest : List Byte)
    (hc : IsDelim c) : scanField (ds ++ c :: rest) = .ok ds rest := by
  induction ds with
  | nil =>
    simp only [IsDelim] at hc
    simp [scanField, hc]
  | cons x xs ih =>
    have hx := hd x (by simp)
    rw [List.cons_append, scanField, if_neg (digit_not_delim hx), if_pos ((isDigitB_iff x).2 hx),
      ih (fun b hb => hd b (by simp [hb]))]

theorem scanField_dec (v : Nat) (c : Byte) (rest : List Byte) (hc : IsDelim c) :
    scanField (dec v ++ c :: rest) = .ok (dec v) rest :=
  scanField_digits _ (dec_digit v) c rest hc

theorem strtolInt_dec (v : Nat) (h : v < 2147483648) : strtolInt (dec v) = v := by
  unfold strtolInt
  rw [digitsVal_dec, i32_of_range] <;> omega

theorem strtoulUInt_dec (v : Nat) (h : v < 4294967296) : strtoulUInt (dec v) = v := by
  unfold strtoulUInt
  rw [digitsVal_dec, u32_natCast] <;> omega

theorem delim_SP : IsDelim SP := Or.inl rfl
theorem delim_CR : IsDelim CR := Or.inr (Or.inr rfl)

/-- Text of a data-frame header. -/
def dataHeader (type : FType) (ch mn : Nat) (more : Bool) (sq sz : Nat) (an : Option Nat) :
    List Byte :=
  type.letters ++ SP :: (dec ch ++ SP :: (dec mn ++ SP :: (if more then STAR else DOT) :: SP ::
    (dec sq ++ SP :: (dec sz ++ ((match an with | some a => SP :: dec a | none => []) ++ crlf)))))

theorem buildHeader_data (type : FType) (ht : type ≠ .seq) (ch mn : Int) (more : Bool) (sq : Nat)
    (sz an : Int) (ha : an < 2147483648) :
    buildHeader type ch mn more sq sz an none none =
      some (dataHeader type (u32 ch) (u32 mn) more (u32 sq) (u32 sz)
        (if 0 ≤ an then some an.toNat else none)) := by
  unfold buildHeader
  simp only [itoaStr_eq, Option.bind_eq_bind, Option.bind_some, ht, if_false, Option.isSome_none,
    Bool.or_self, List.append_nil]
  by_cases h : 0 ≤ an
  · have : u32 an = an.toNat := u32_of_nonneg an h (by omega)
    simp [h, dataHeader, this, crlf]
  · simp [h, dataHeader, crlf]

/-- Text of a SEQ header. -/
def seqHeader (ch ack win : Nat) : List Byte :=
  FType.seq.letters ++ SP :: (dec ch ++ SP :: (dec ack ++ SP :: (dec win ++ crlf)))

theorem buildSeq_eq (ch ack win : Int) :
    buildSeq ch ack win = some (seqHeader (u32 ch) (u32 ack) (u32 win)) := by
  unfold buildSeq buildHeader
  have : u32 (u32 win : Int) = u32 win := u32_natCast _ (u32_lt win)
  simp [itoaStr_eq, seqHeader, crlf, this]

theorem letters_length (t : FType) : t.letters.length = 3 := by cases t <;> decide

/-- The memory at `&line[4]` for a data header. -/
theorem dataHeader_drop4 (type : FType) (ch mn : Nat) (more : Bool) (sq sz : Nat)
    (an : Option Nat) :
    (dataHeader type ch mn more sq sz an).drop 4 =
      dec ch ++ SP :: (dec mn ++ SP :: (if more then STAR else DOT) :: SP ::
    (dec sq ++ SP :: (dec sz ++ ((match an with | some a => SP :: dec a | none => []) ++ crlf)))) := by
  unfold dataHeader
  rw [List.drop_append, letters_length, List.drop_of_length_le (by rw [letters_length]; omega)]
  simp

theorem seqHeader_drop4 (ch ack win : Nat) :
    (seqHeader ch ack win).drop 4 = dec ch ++ SP :: (dec ack ++ SP :: (dec win ++ crlf)) := by
  unfold seqHeader
  rw [List.drop_append, letters_length, List.drop_of_length_le (by rw [letters_length]; omega)]
  simp

theorem parse_dataHeader (type : FType) (ht : type ≠ .seq) (ch mn : Nat) (more : Bool)
    (sq sz : Nat) (an : Option Nat) (hch : ch < 2147483648) (hmn : mn < 2147483648)
    (hsq : sq < 4294967296) (hsz : sz < 2147483648)
    (han : (type = .ans ↔ an.isSome) ∧ ∀ a ∈ an, a < 2147483648)
    (tail : List Byte) (hl : Int)
    (hhl : hl = ((dataHeader type ch mn more sq sz an).length : Int) - 4) :
    getHeaderData type ((dataHeader type ch mn more sq sz an).drop 4 ++ tail) hl =
      .ok ((dataHeader type ch mn more sq sz an).length - 4) (if more then STAR else DOT)
        { type, channel := ch, msgno := mn, more := false, seqno := sq, size := sz,
          ansno := ((an.getD 0 : Nat) : Int), payload := [] } := by
  have hlen : (dataHeader type ch mn more sq sz an).length =
      3 + 1 + (dec ch).length + 1 + (dec mn).length + 1 + 2 + (dec sq).length + 1 + (dec sz).length +
        (match an with | some a => 1 + (dec a).length | none => 0) + 2 := by
    unfold dataHeader
    cases an <;> simp [letters_length, crlf] <;> omega
  have l1 := dec_length_pos ch
  have l2 := dec_length_pos mn
  have l3 := dec_length_pos sq
  have l4 := dec_length_pos sz
  rw [dataHeader_drop4]
  unfold getHeaderData
  rw [if_neg (by omega)]
  simp only [List.append_assoc, List.cons_append]
  rw [scanField_dec _ _ _ delim_SP]
  simp only [strtolInt_dec ch hch]
  rw [if_neg (by omega), if_neg (by omega), if_neg ht]
  rw [scanField_dec _ _ _ delim_SP]
  simp only [strtolInt_dec mn hmn]
  rw [if_neg (by omega), if_neg (by omega)]
  rw [scanField_dec _ _ _ delim_SP]
  simp only [strtoulUInt_dec sq hsq]
  cases an with
  | none =>
    have hna : type ≠ .ans := by simpa using han.1
    simp only [crlf, List.nil_append, List.cons_append]
    rw [scanField_dec _ _ _ delim_CR]
    simp only [strtolInt_dec sz hsz, if_neg hna]
    simp only [Frame.zero, HdrResult.ok.injEq, true_and]
    refine ⟨?_, ?_⟩
    · simp only at hlen; omega
    · simp
  | some a =>
    have hna : type = .ans := by simpa using han.1
    have ha := han.2 a rfl
    simp only [crlf, List.nil_append, List.cons_append]
    rw [scanField_dec _ _ _ delim_SP]
    simp only [strtolInt_dec sz hsz, if_pos hna]
    rw [scanField_dec _ _ _ delim_CR]
    simp only [strtolInt_dec a ha, Frame.zero, HdrResult.ok.injEq, true_and]
    refine ⟨?_, ?_⟩
    · simp only at hlen; omega
    · simp

theorem parse_seqHeader (ch ack win : Nat) (hch : ch < 2147483648)
    (hack : ack < 4294967294) (hwin : win < 2147483648) (tail : List Byte) (hl : Int)
    (hhl : hl = ((seqHeader ch ack win).length : Int) - 4) :
    getHeaderData .seq ((seqHeader ch ack win).drop 4 ++ tail) hl =
      .ok ((seqHeader ch ack win).length - 4) 0
        { type := .seq, channel := ch, msgno := 0, more := false, seqno := ack, size := win,
          ansno := 0, payload := [] } := by
  have hlen : (seqHeader ch ack win).length =
      3 + 1 + (dec ch).length + 1 + (dec ack).length + 1 + (dec win).length + 2 := by
    unfold seqHeader
    simp [letters_length, crlf]; omega
  have l1 := dec_length_pos ch
  have l2 := dec_length_pos ack
  have l3 := dec_length_pos win
  rw [seqHeader_drop4]
  unfold getHeaderData
  rw [if_neg (by omega)]
  simp only [List.append_assoc, List.cons_append]
  rw [scanField_dec _ _ _ delim_SP]
  simp only [strtolInt_dec ch hch]
  rw [if_neg (by omega), if_neg (by omega), if_pos trivial]
  rw [scanField_dec _ _ _ delim_SP]
  simp only [strtoulUInt_dec ack (by omega)]
  rw [if_neg (by omega), if_neg (by omega)]
  simp only [crlf, List.cons_append]
  rw [scanField_dec _ _ _ delim_CR]
  simp only [strtolInt_dec win hwin]
  rw [if_neg (by omega), if_neg (by omega)]
  simp only [Frame.zero, HdrResult.ok.injEq, true_and, and_true]
  omega

theorem parse_seqHeader_sentinel (ch win : Nat) (hch : ch < 2147483648) (tail : List Byte)
    (hl : Int) (hhl : hl = ((seqHeader ch 4294967295 win).length : Int) - 4) :
    getHeaderData .seq ((seqHeader ch 4294967295 win).drop 4 ++ tail) hl =
      .sentinel
        { type := .seq, channel := ch, msgno := 0, more := false, seqno := 4294967295,
          size := 0, ansno := 0, payload := [] } := by
  have hlen : (seqHeader ch 4294967295 win).length =
      3 + 1 + (dec ch).length + 1 + (dec 4294967295).length + 1 + (dec win).length + 2 := by
    unfold seqHeader
    simp [letters_length, crlf]; omega
  have l1 := dec_length_pos ch
  have l2 := dec_length_pos 4294967295
  have l3 := dec_length_pos win
  rw [seqHeader_drop4]
  unfold getHeaderData
  rw [if_neg (by omega)]
  simp only [List.append_assoc, List.cons_append]
  rw [scanField_dec _ _ _ delim_SP]
  simp only [strtolInt_dec ch hch]
  rw [if_neg (by omega), if_neg (by omega), if_pos trivial]
  rw [scanField_dec _ _ _ delim_SP]
  simp only [strtoulUInt_dec 4294967295 (by omega), if_true, Frame.zero]

theorem parse_seqHeader_wrong (ch win : Nat) (hch : ch < 2147483648) (tail : List Byte)
    (hl : Int) (hhl : hl = ((seqHeader ch 4294967294 win).length : Int) - 4) :
    getHeaderData .seq ((seqHeader ch 4294967294 win).drop 4 ++ tail) hl = .wrong := by
  have hlen : (seqHeader ch 4294967294 win).length =
      3 + 1 + (dec ch).length + 1 + (dec 4294967294).length + 1 + (dec win).length + 2 := by
    unfold seqHeader
    simp [letters_length, crlf]; omega
  have l1 := dec_length_pos ch
  have l2 := dec_length_pos 4294967294
  have l3 := dec_length_pos win
  rw [seqHeader_drop4]
  unfold getHeaderData
  rw [if_neg (by omega)]
  simp only [List.append_assoc, List.cons_append]
  rw [scanField_dec _ _ _ delim_SP]
  simp only [strtolInt_dec ch hch]
  rw [if_neg (by omega), if_neg (by omega), if_pos trivial]
  rw [scanField_dec _ _ _ delim_SP]
  simp only [strtoulUInt_dec 4294967294 (by omega)]
  rw [if_neg (by omega), if_pos (Or.inl trivial)]

end Verif.Proof
