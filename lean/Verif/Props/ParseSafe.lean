import Verif.Proof.ParseSafe
import Verif.Model.GetNext
/-!
# C06 — the header parser stays inside the received line
-/
namespace Verif.Props
open Verif.Model Verif.Proof

/-- **C06 (full statement, violated)**: whatever line a peer sends, processing it only reads the line
and its terminator. -/
def C06_statement : Prop :=
  ∀ (env : ReadEnv) (line : List Byte) (st : ReadState),
    checkHeader env line st ≠ .inl .outsideLine

/-- Number of spaces in an octet string. -/
def spaces (s : List Byte) : Nat := s.countP (· == SP)

private theorem startsWith_prefix (line w : List Byte) (h : startsWith line w = true) :
    w <+: line := by
  unfold startsWith at h
  rw [beq_iff_eq] at h
  exact h ▸ List.take_prefix _ _

private theorem digits_no_space (d : List Byte) (h : ∀ x ∈ d, isDigitB x = true) : spaces d = 0 := by
  unfold spaces
  rw [List.countP_eq_zero]
  intro a ha hsp
  have := h a ha
  simp only [beq_iff_eq] at hsp
  rw [hsp] at this
  exact absurd this (by decide)

/-- **C06 (partial)**: for every line received from the peer — any octets — that announces a SEQ
frame or has at least three spaces (i.e. at least a fourth field, or a second space after the
channel number), the parser does not leave the line. Missing: data-frame lines that end right after
the message number, see `C06_short_line_escapes`. -/
theorem C06_parser_inside_partial (env : ReadEnv) (line : List Byte) (st : ReadState)
    (h : startsWith line (lit "SEQ") = true ∨ 2 ≤ spaces (line.drop 4)) :
    checkHeader env line st ≠ .inl .outsideLine := by
  intro hc
  unfold checkHeader at hc
  split at hc
  · simp at hc
  next h1 =>
  have hcr : crlf <:+ line := by
    by_cases hx : crlf <:+ line
    · exact hx
    · exact absurd (Or.inr hx) h1
  split at hc
  · simp at hc
  next type ht =>
  have hlen : 5 ≤ line.length := by
    obtain ⟨p, hp⟩ := hcr
    have hl : line.length = p.length + 2 := by rw [← hp]; simp [crlf]
    rcases Nat.lt_or_ge 4 line.length with hlt | hge
    · omega
    · exfalso
      -- the first three octets would overlap CR LF
      have : ∀ w : String, (lit w).length = 3 → CR ∉ lit w → startsWith line (lit w) = true → False := by
        intro w hw hcr' hs
        have hpre : lit w <+: line := startsWith_prefix _ _ hs
        obtain ⟨q, hq⟩ := hpre
        have hp3 : p.length ≤ 2 := by omega
        have e1 : line[p.length]? = some CR := by rw [← hp]; simp [crlf]
        have e2 : line[p.length]? = (lit w)[p.length]? := by
          rw [← hq, List.getElem?_append_left (by omega)]
        rw [e2] at e1
        exact hcr' (List.mem_of_getElem? e1)
      unfold frameType at ht
      split at ht
      · exact this "MSG" (by decide) (by decide) (by assumption)
      split at ht
      · exact this "RPY" (by decide) (by decide) (by assumption)
      split at ht
      · exact this "ANS" (by decide) (by decide) (by assumption)
      split at ht
      · exact this "ERR" (by decide) (by decide) (by assumption)
      split at ht
      · exact this "NUL" (by decide) (by decide) (by assumption)
      split at ht
      · exact this "SEQ" (by decide) (by decide) (by assumption)
      · simp at ht
  split at hc
  · next ho =>
    have hl' : ((line.drop 4).length : Int) = (line.length : Int) - 4 := by
      rw [List.length_drop]; omega
    rw [← hl'] at ho
    obtain ⟨hty, d1, c, d2, c2, e, hb, hd1, hd2, hc1, hc2⟩ := getHeaderData_outside _ _ ho
    rcases h with h | h
    · -- SEQ lines
      have hne : ∀ w : String, lit w ≠ lit "SEQ" → (lit w).length = 3 →
          startsWith line (lit w) = false := by
        intro w hw hw3
        cases hx : startsWith line (lit w) with
        | false => rfl
        | true =>
          exfalso
          obtain ⟨q, hq⟩ := startsWith_prefix _ _ hx
          obtain ⟨q', hq'⟩ := startsWith_prefix _ _ h
          exact hw (List.append_inj (hq.trans hq'.symm) (by rw [hw3]; decide)).1
      unfold frameType at ht
      rw [hne "MSG" (by decide) (by decide), hne "RPY" (by decide) (by decide),
        hne "ANS" (by decide) (by decide), hne "ERR" (by decide) (by decide),
        hne "NUL" (by decide) (by decide), h] at ht
      simp only [Bool.false_eq_true, if_false, if_true, Option.some.injEq] at ht
      exact hty ht.symm
    · rw [hb] at h
      have hcl : crlf <:+ line.drop 4 := by
        obtain ⟨p, hp⟩ := hcr
        have hl : line.length = p.length + 2 := by rw [← hp]; simp [crlf]
        rcases Nat.lt_or_ge p.length 4 with hlt | hge
        · exfalso
          have hx := congrArg List.length hb
          rw [List.length_drop] at hx
          simp at hx
          omega
        · refine ⟨p.drop 4, ?_⟩
          rw [← hp, List.drop_append_of_le_length hge]
      rw [hb] at hcl
      obtain ⟨p, hp⟩ := hcl
      have := (List.append_inj' hp rfl).2
      simp only [crlf, List.cons.injEq, and_true] at this
      obtain ⟨hC, hL⟩ := this
      subst hC; subst hL
      unfold spaces at h
      simp only [List.countP_append, List.countP_cons, List.countP_nil] at h
      have a1 := digits_no_space d1 hd1
      have a2 := digits_no_space d2 hd2
      unfold spaces at a1 a2
      rw [a1, a2] at h
      have z1 : (CR == SP) = false := by decide
      have z2 : (LF == SP) = false := by decide
      rw [z1, z2] at h
      simp only [Bool.false_eq_true, if_false] at h
      split at h <;> omega
  · simp at hc
  · simp at hc
  · split at hc
    · simp at hc
    · split at hc <;> simp at hc
  · split at hc
    · simp at hc
    · split at hc
      · simp at hc
      · split at hc
        · simp at hc
        · split at hc
          · simp at hc
          · simp only at hc
            split at hc <;> simp at hc

/-- **C06 (violation)**: on a data-frame line that ends right after the message number the parser
skips the terminator and goes on reading beyond it. -/
theorem C06_short_line_escapes (env : ReadEnv) (st : ReadState) :
    checkHeader env (lit "MSG 0 1\r\n") st = .inl .outsideLine := by
  have h1 : ¬ ((lit "MSG 0 1\r\n").length = 1 ∨ ¬ (crlf <:+ lit "MSG 0 1\r\n")) := by decide
  have h2 : frameType (lit "MSG 0 1\r\n") = some .msg := by decide
  have h3 : getHeaderData .msg ((lit "MSG 0 1\r\n").drop 4 ++ [NUL])
    (((lit "MSG 0 1\r\n").length : Int) - 4) = .outside := by decide +kernel
  unfold checkHeader
  rw [if_neg h1, h2]
  simp only [h3]

theorem C06_statement_false : ¬ C06_statement := fun h =>
  h ⟨fun _ => true, fun _ _ _ => true⟩ _ ReadState.init
    (C06_short_line_escapes ⟨fun _ => true, fun _ _ _ => true⟩ ReadState.init)

-- lines meeting the hypothesis, one well formed, one not
example : 2 ≤ spaces ((lit "RPY 1 2 . 3 4\r\n").drop 4) ∧ 2 ≤ spaces ((lit "ANS   \r\n").drop 4) ∧
    startsWith (lit "SEQ\r\n") (lit "SEQ") = true := by decide

end Verif.Props
