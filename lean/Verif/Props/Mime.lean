import Verif.Proof.MimeRoundTrip
/-!
# C21, C22, C23 — MIME headers
-/
namespace Verif.Props
open Verif.Model Verif.Spec Verif.Proof

/-! ## C21 — implicit headers -/

/-- **C21 (full statement, violated)**: whatever MIME type and transfer encoding are configured, the
content of a message is the header block for them followed by the message, and the space reserved is the
size of the block. -/
def C21_statement : Prop :=
  ∀ (type encoding : Option (List Byte)) (message : List Byte),
    mimeContent ⟨true, type, encoding⟩ message =
      some (headerBlock (implicitHeaders type encoding) ++ message) ∧
    mimeHeadersSize ⟨true, type, encoding⟩ = (headerBlock (implicitHeaders type encoding)).length

/-- The reserved size is always the size of the header block, also where the block itself is written
wrongly. -/
theorem C21_reserved_size (type encoding : Option (List Byte)) :
    mimeHeadersSize ⟨true, type, encoding⟩ = (headerBlock (implicitHeaders type encoding)).length := by
  have l1 : (lit "Content-Type").length = 12 := rfl
  have l2 : (lit "Content-Transfer-Encoding").length = 25 := rfl
  have l3 : (lit ": ").length = 2 := rfl
  cases type with
  | none =>
    cases encoding with
    | none => simp [mimeHeadersSize, implicitHeaders, headerBlock, showsType, showsEncoding]
    | some e =>
      by_cases h : e = lit "binary" <;>
        simp [mimeHeadersSize, implicitHeaders, headerBlock, headerLine, showsType, showsEncoding, h, l2, l3]
      omega
  | some t =>
    by_cases ht : t = lit "application/octet-stream"
    · cases encoding with
      | none => simp [mimeHeadersSize, implicitHeaders, headerBlock, showsType, showsEncoding, ht]
      | some e =>
        by_cases h : e = lit "binary" <;>
          simp [mimeHeadersSize, implicitHeaders, headerBlock, headerLine, showsType, showsEncoding, h, ht, l2,
            l3]
        omega
    · cases encoding with
      | none =>
        simp [mimeHeadersSize, implicitHeaders, headerBlock, headerLine, showsType, showsEncoding, ht, l1, l3]
        omega
      | some e =>
        by_cases h : e = lit "binary" <;>
          simp [mimeHeadersSize, implicitHeaders, headerBlock, headerLine, showsType, showsEncoding, h, ht, l1,
            l2, l3] <;> omega

theorem aux_memcpyAt (a b c d : List Byte) (h : b.length = c.length) :
    memcpyAt (a ++ (b ++ d)) a.length c = some (a ++ c ++ d) := by
  unfold memcpyAt
  rw [if_pos (by simp; omega)]
  simp [h]

theorem aux_replicate_split (n k : Nat) (h : k ≤ n) (x : Byte) :
    List.replicate n x = List.replicate k x ++ List.replicate (n - k) x := by
  rw [List.replicate_append_replicate]; congr 1; omega

/-- **C21 (partial)**: with the default transfer encoding (unset or `binary`), for every MIME type and
message, the content is the header block followed by the message. Missing: any other transfer
encoding, see `C21_wrong_encoding`. -/
theorem C21_content_partial (type : Option (List Byte)) (encoding : Option (List Byte))
    (he : encoding = none ∨ encoding = some (lit "binary")) (message : List Byte) :
    mimeContent ⟨true, type, encoding⟩ message =
      some (headerBlock (implicitHeaders type encoding) ++ message) := by
  have hse : showsEncoding ⟨true, type, encoding⟩ = false := by
    rcases he with h | h <;> simp [showsEncoding, h]
  have himp : implicitHeaders type encoding = implicitHeaders type none := by
    rcases he with h | h <;> simp [implicitHeaders, h]
  have hn := C21_reserved_size type encoding
  rw [himp] at hn ⊢
  unfold mimeContent
  simp only [Option.bind_eq_bind]
  rw [hn]
  by_cases hst : showsType ⟨true, type, encoding⟩ = true
  · obtain ⟨t, rfl, ht⟩ : ∃ t, type = some t ∧ t ≠ lit "application/octet-stream" := by
      cases type with
      | none => simp [showsType] at hst
      | some t => exact ⟨t, rfl, by simpa [showsType] using hst⟩
    have himp2 : headerBlock (implicitHeaders (some t) none) =
        lit "Content-Type: " ++ t ++ crlf ++ crlf := by
      simp [implicitHeaders, ht, headerBlock, headerLine, crlf]
      rfl
    have hlen : (headerBlock (implicitHeaders (some t) none)).length = 14 + t.length + 4 := by
      rw [himp2]
      simp [show (lit "Content-Type: ").length = 14 from rfl, crlf]; omega
    rw [if_pos (by omega)]
    rw [hlen, himp2]
    have hbuf : List.replicate (message.length + (14 + t.length + 4) + 1) (0 : Byte) =
        [] ++ (List.replicate 14 0 ++ (List.replicate t.length 0 ++ (List.replicate 2 0 ++
          (List.replicate 2 0 ++ (List.replicate message.length 0 ++ [0]))))) := by
      have : ([0] : List Byte) = List.replicate 1 0 := rfl
      rw [this]
      simp only [List.replicate_append_replicate, List.nil_append]
      congr 1; omega
    have hw : writeMimeHeaders ⟨true, some t, encoding⟩
        (List.replicate (message.length + (14 + t.length + 4) + 1) (0 : Byte)) =
        some (lit "Content-Type: " ++ t ++ crlf ++ crlf ++ (List.replicate message.length 0 ++ [0])) := by
      unfold writeMimeHeaders
      rw [hst, hse, hbuf]
      simp only [if_true, Option.bind_eq_bind, Option.getD_some, Bool.false_eq_true, if_false,
        Option.pure_def, Option.bind_some]
      rw [show (0 : Nat) = ([] : List Byte).length from rfl, aux_memcpyAt [] _ (lit "Content-Type: ") _ (by rfl)]
      simp only [Option.bind_some, List.nil_append]
      rw [show (14 : Nat) = (lit "Content-Type: ").length from rfl]
      rw [aux_memcpyAt (lit "Content-Type: ") _ t _ (by simp)]
      simp only [Option.bind_some]
      have h3 := aux_memcpyAt (lit "Content-Type: " ++ t) (List.replicate 2 0) crlf
        (List.replicate 2 0 ++ (List.replicate message.length 0 ++ [0])) (by simp [crlf])
      rw [List.length_append] at h3
      rw [h3]
      simp only [Option.bind_some]
      have h4 := aux_memcpyAt (lit "Content-Type: " ++ t ++ crlf) (List.replicate 2 0) crlf
        (List.replicate message.length 0 ++ [0]) (by simp [crlf])
      rw [show (lit "Content-Type: " ++ t ++ crlf).length = 16 + t.length by
        simp [show (lit "Content-Type: ").length = 14 from rfl, crlf]; omega] at h4
      rw [h4]
    rw [hw]
    simp only [Option.bind_some]
    have h5 := aux_memcpyAt (lit "Content-Type: " ++ t ++ crlf ++ crlf) (List.replicate message.length 0) message
      [0] (by simp)
    rw [show (lit "Content-Type: " ++ t ++ crlf ++ crlf).length = 14 + t.length + 4 by
        simp [show (lit "Content-Type: ").length = 14 from rfl, crlf]; omega] at h5
    rw [h5]
    simp only [Option.bind_some, Option.some.injEq]
    rw [List.take_append_of_le_length (by
      simp [show (lit "Content-Type: ").length = 14 from rfl, crlf]; omega)]
    apply List.take_of_length_le
    simp [show (lit "Content-Type: ").length = 14 from rfl, crlf]; omega
  · have hst : showsType ⟨true, type, encoding⟩ = false := by simpa using hst
    have himp2 : headerBlock (implicitHeaders type none) = crlf := by
      cases type with
      | none => rfl
      | some t =>
        have : t = lit "application/octet-stream" := by simpa [showsType] using hst
        simp [implicitHeaders, this, headerBlock, crlf]
    rw [himp2]
    have hw : writeMimeHeaders ⟨true, type, encoding⟩
        (List.replicate (message.length + crlf.length + 1) (0 : Byte)) =
        some (crlf ++ (List.replicate message.length 0 ++ [0])) := by
      unfold writeMimeHeaders
      rw [hst, hse]
      simp only [Bool.false_eq_true, if_false, Option.pure_def, Option.bind_eq_bind, Option.bind_some]
      rw [show List.replicate (message.length + crlf.length + 1) (0 : Byte) =
        [] ++ (List.replicate 2 0 ++ (List.replicate message.length 0 ++ List.replicate 1 0)) by
          simp only [List.replicate_append_replicate, List.nil_append]
          congr 1; simp [crlf]; omega]
      rw [show (0 : Nat) = ([] : List Byte).length from rfl, aux_memcpyAt [] _ crlf _ (by rfl)]
      rfl
    rw [if_pos (by simp [crlf]), hw]
    simp only [Option.bind_some]
    rw [aux_memcpyAt crlf _ message _ (by simp)]
    simp only [Option.bind_some, Option.some.injEq]
    rw [List.take_append_of_le_length (by simp [crlf])]
    apply List.take_of_length_le
    simp [crlf]

example : mimeContent ⟨true, some (lit "text/plain"), some (lit "binary")⟩ (lit "hi") =
    some (lit "Content-Type: text/plain\r\n\r\nhi") := by decide +kernel

/-- **C21 (violation)**: the MIME type is written where the transfer encoding should be; and when it
is longer, the octets after the buffer are overwritten. -/
theorem C21_wrong_encoding :
    mimeContent ⟨true, some (lit "text/plain"), some (lit "quoted-printable")⟩ (lit "hi") =
      some (lit "Content-Type: text/plain\r\nContent-Transfer-Encoding: text/plain\r\n" ++
        [0, 0, 0, 0] ++ [0, 0] ++ lit "\r\nhi") ∧
    mimeContent ⟨true, some (lit "application/xml"), some (lit "8bit")⟩ (lit "hi") = none := by
  constructor <;> decide +kernel

theorem C21_statement_false : ¬ C21_statement := by
  intro h
  have := (h (some (lit "application/xml")) (some (lit "8bit")) (lit "hi")).1
  rw [C21_wrong_encoding.2] at this
  simp at this

/-- What the sender's implicit headers become at the receiver: the message itself. -/
theorem C21_receiver_sees_message (type : List Byte) (hv : HeaderValue type) (message : List Byte)
    (encoding : Option (List Byte)) (he : encoding = none ∨ encoding = some (lit "binary")) :
    ∃ content, mimeContent ⟨true, some type, encoding⟩ message = some content ∧
      mimeBody wireTail content = some message ∧ mimeBody builtTail content = some message := by
  refine ⟨_, C21_content_partial (some type) encoding he message, ?_⟩
  have hx : ∀ x ∈ implicitHeaders (some type) encoding, HeaderName x.1 ∧ HeaderValue x.2 := by
    have himp : implicitHeaders (some type) encoding = implicitHeaders (some type) none := by
      rcases he with h | h <;> simp [implicitHeaders, h]
    rw [himp]
    intro x hx
    simp only [implicitHeaders, List.append_nil] at hx
    split at hx
    · simp at hx
    · simp only [List.mem_singleton] at hx
      subst hx
      refine ⟨?_, hv⟩
      show HeaderName (lit "Content-Type")
      exact ⟨by decide, by decide, by decide +kernel⟩
  constructor
  · unfold mimeBody
    rw [mimeProcess_block wireTail rfl _ message hx]
    simp
  · unfold mimeBody
    rw [mimeProcess_block builtTail rfl _ message hx]
    simp

/-! ## C22 — parsing -/

/-- **C22 (full statement, violated)**: for every content, received in one frame or rebuilt from
fragments, processing stays inside the memory of the frame, and if it succeeds the body is what follows
the first empty line. -/
def C22_statement : Prop :=
  ∀ tl, tl = wireTail ∨ tl = builtTail → ∀ p, mimeProcess tl p ≠ .outside ∧
    ∀ hs n, mimeProcess tl p = .ok hs n → BodyAt p n

theorem aux_tail {tl : List Byte} (h : tl = wireTail ∨ tl = builtTail) : ∃ t, tl = NUL :: t := by
  rcases h with rfl | rfl
  · exact ⟨_, rfl⟩
  · exact ⟨_, rfl⟩

/-- **C22**: whenever processing succeeds, the body starts right after the first empty line (so headers
and body together are the content), for every content. -/
theorem C22_split (tl : List Byte) (htl : tl = wireTail ∨ tl = builtTail) (p : List Byte)
    (hs : List (List Byte × List Byte)) (n : Nat) (h : mimeProcess tl p = .ok hs n) :
    BodyAt p n ∧ n ≤ p.length ∧ mimeBody tl p = some (p.drop n) := by
  obtain ⟨t, ht⟩ := aux_tail htl
  have hb : BodyAt p n := by
    rcases mimeProcess_spec p tl ht with h1 | ⟨hs', n', h1, h2⟩ | ⟨f, a, h1, _⟩
    · rw [h1] at h; simp at h
    · rw [h1] at h
      simp only [MimeResult.ok.injEq] at h
      rw [← h.2]; exact h2
    · rw [h1] at h
      rcases htl with rfl | rfl
      · rw [mimeLoop_past_wire] at h; simp at h
      · rw [mimeLoop_past_built] at h; simp at h
  refine ⟨hb, ?_, by simp [mimeBody, h]⟩
  obtain ⟨i, hi, _⟩ := hb
  rcases hi.2 with h1 | h1
  · have := h1.1
    rcases Nat.lt_or_ge i p.length with h2 | h2
    · omega
    · rw [List.getElem?_eq_none h2] at this; simp at this
  · have := h1.2.1
    rcases Nat.lt_or_ge (i + 1) p.length with h2 | h2
    · omega
    · rw [List.getElem?_eq_none h2] at this; simp at this

/-- **C22**: processing a frame as it was received never leaves its memory, for every content. -/
theorem C22_inside_received (p : List Byte) : mimeProcess wireTail p ≠ .outside := by
  intro h
  rcases mimeProcess_spec p wireTail rfl with h1 | ⟨hs', n', h1, h2⟩ | ⟨f, a, h1, _⟩
  · rw [h1] at h; simp at h
  · rw [h1] at h; simp at h
  · rw [h1, mimeLoop_past_wire] at h; simp at h

/-- **C22 (partial)**: processing a message rebuilt from fragments stays inside when its content has an
empty line. Missing: contents without empty line, see `C22_rebuilt_escapes`. -/
theorem C22_inside_rebuilt_partial (p : List Byte) (h : ∃ i n, EmptyLineAt p i n) :
    mimeProcess builtTail p ≠ .outside := by
  intro ho
  rcases mimeProcess_spec p builtTail rfl with h1 | ⟨hs', n', h1, h2⟩ | ⟨f, a, h1, h2⟩
  · rw [h1] at ho; simp at ho
  · rw [h1] at ho; simp at ho
  · obtain ⟨i, n, hi⟩ := h
    exact h2 i n hi

/-- **C22 (violation)**: a message without line break whose beginning looks like a header, received in
fragments, makes the parser read past the end of the buffer. -/
theorem C22_rebuilt_escapes :
    mimeProcess builtTail (lit "http://localhost/") = .outside ∧
    mimeProcess builtTail (lit "To: me\r\nSubject: x") = .outside := by
  constructor <;> decide +kernel

theorem C22_statement_false : ¬ C22_statement := by
  intro h
  exact (h builtTail (Or.inr rfl) _).1 C22_rebuilt_escapes.1

/-- **C22**: every header block written in the usual form is understood: the parser finds exactly these
headers, in order, and the body is what follows. -/
theorem C22_round_trip (tl : List Byte) (htl : tl = wireTail ∨ tl = builtTail)
    (hs : List (List Byte × List Byte)) (body : List Byte)
    (hx : ∀ x ∈ hs, HeaderName x.1 ∧ HeaderValue x.2) :
    mimeProcess tl (headerBlock hs ++ body) = .ok hs (headerBlock hs).length ∧
    mimeBody tl (headerBlock hs ++ body) = some body := by
  obtain ⟨t, ht⟩ := aux_tail htl
  have := mimeProcess_block tl ht hs body hx
  exact ⟨this, by simp [mimeBody, this]⟩

-- a content with folded header, and one that meets the hypotheses of the partial theorem
example : mimeProcess builtTail (lit "A: b\r\n c\r\nD:  e \r\n\r\nbody") =
    .ok [(lit "A", lit "b\r\n c"), (lit "D", lit "e")] 20 := by decide +kernel
example : ∃ i n, EmptyLineAt (lit "A: b\r\n\r\nbody") i n := ⟨6, 8, by decide +kernel, by decide +kernel⟩
example : HeaderName (lit "Content-Type") ∧ HeaderValue (lit "text/plain; charset=utf-8") := by
  refine ⟨⟨by decide, by decide, by decide +kernel⟩, by decide +kernel, ?_, ?_⟩
  · intro b hb; simp [lit] at hb; subst hb; decide
  · intro b hb; simp [lit] at hb; subst hb; decide

/-! ## C23 — header store -/

/-- The headers a frame should have after the operations: in the order they were set, and without
those removed later. -/
def headersAfter (ops : List MimeOp) : List (List Byte × List Byte) :=
  ops.foldl (fun hs op => match op with
    | .set n c => hs ++ [(n, c)]
    | .remove n => hs.filter fun h => ¬ SameName h.1 n) []

/-- Their contents for one name. -/
def valuesOf (name : List Byte) (hs : List (List Byte × List Byte)) : List (List Byte) :=
  (hs.filter fun h => SameName h.1 name).map (·.2)

/-- **C23 (full statement, violated)**. -/
def C23_statement : Prop :=
  ∀ (ops : List MimeOp) (name : List Byte),
    (ops.foldl MimeStatus.apply .init).values name = valuesOf name (headersAfter ops) ∧
    (ops.foldl MimeStatus.apply .init).size =
      if headersAfter ops = [] then 0 else ((headerBlock (headersAfter ops)).length : Int)

theorem aux_casecmp (a b : List Byte) : casecmp a b = true ↔ SameName a b := by
  unfold casecmp SameName
  rw [beq_iff_eq]
  exact Iff.rfl

theorem aux_casecmp_false (a b : List Byte) : casecmp a b = false ↔ ¬ SameName a b := by
  rw [← aux_casecmp]; simp

theorem aux_findChain_append (h : MHeader) (n : List Byte) : ∀ cs, findChain h.name cs ≠ [] →
    findChain n (appendChain h cs) =
      if SameName h.name n then findChain n cs ++ [h] else findChain n cs
  | [], he => absurd rfl he
  | [] :: cs, he => by
    simp only [findChain, appendChain] at he ⊢
    exact aux_findChain_append h n cs he
  | (g :: t) :: cs, he => by
    simp only [findChain, appendChain] at he ⊢
    by_cases hg : SameName h.name g.name
    · rw [if_pos ((aux_casecmp _ _).mpr hg)]
      simp only [List.cons_append, findChain]
      by_cases hn : SameName h.name n
      · have : SameName n g.name := hn.symm.trans hg
        have hc := (aux_casecmp _ _).mpr this
        simp [hc, hn]
      · have : ¬ SameName n g.name := fun hx => hn (hg.trans hx.symm)
        have hc := (aux_casecmp_false _ _).mpr this
        simp [hc, hn]
    · have hc := (aux_casecmp_false _ _).mpr hg
      simp only [hc, Bool.false_eq_true, if_false] at he ⊢
      simp only [findChain]
      by_cases hn : SameName n g.name
      · have h1 : ¬ SameName h.name n := fun hx => hg (hx.trans hn)
        have hc2 := (aux_casecmp _ _).mpr hn
        simp [hc2, h1]
      · have hc2 := (aux_casecmp_false _ _).mpr hn
        simp only [hc2, Bool.false_eq_true, if_false]
        exact aux_findChain_append h n cs he

theorem aux_findChain_same (a n : List Byte) (h : SameName a n) : ∀ cs, findChain a cs = findChain n cs
  | [] => rfl
  | [] :: cs => by simp only [findChain]; exact aux_findChain_same a n h cs
  | (g :: t) :: cs => by
    have : casecmp a g.name = casecmp n g.name := by
      unfold casecmp
      rw [show a.map lower = n.map lower from h]
    simp only [findChain, this, aux_findChain_same a n h cs]

theorem aux_commonIndex_same (a n : List Byte) (h : SameName a n) : commonIndex a = commonIndex n := by
  have : a.map lower = n.map lower := h
  unfold commonIndex casecmp
  rw [this]

theorem aux_commonIndex_none (n : List Byte) (h : ∀ k ∈ wellKnown, ¬ SameName n k) : commonIndex n = none := by
  have hl : ∀ k ∈ wellKnown, ∀ k', SameName k' k → casecmp n k' = false := by
    intro k hk k' hkk
    rw [aux_casecmp_false]
    intro hx
    exact h k hk (hx.trans hkk)
  unfold commonIndex
  rw [hl (lit "Content-Type") (by decide) _ (by decide),
    hl (lit "Content-Transfer-Encoding") (by decide) _ (by decide),
    hl (lit "MIME-Version") (by decide) _ (by decide),
    hl (lit "Content-ID") (by decide) _ (by decide),
    hl (lit "Content-Description") (by decide) _ (by decide)]
  rfl

theorem aux_commonIndex_key (a : List Byte) (i : Nat) (h : commonIndex a = some i) :
    casecmp a (commonNames[i]?.getD []) = true := by
  unfold commonIndex at h
  by_cases h0 : casecmp a (lit "content-type") = true
  · rw [if_pos h0] at h; cases h; exact h0
  rw [if_neg h0] at h
  by_cases h1 : casecmp a (lit "content-transfer-encoding") = true
  · rw [if_pos h1] at h; cases h; exact h1
  rw [if_neg h1] at h
  by_cases h2 : casecmp a (lit "mime-version") = true
  · rw [if_pos h2] at h; cases h; exact h2
  rw [if_neg h2] at h
  by_cases h3 : casecmp a (lit "content-id") = true
  · rw [if_pos h3] at h; cases h; exact h3
  rw [if_neg h3] at h
  by_cases h4 : casecmp a (lit "content-description") = true
  · rw [if_pos h4] at h; cases h; exact h4
  rw [if_neg h4] at h
  cases h

theorem aux_commonIndex_eq {a n : List Byte} {i : Nat} (ha : commonIndex a = some i) (hn : commonIndex n = some i) :
    SameName a n := by
  have h1 := aux_commonIndex_key a i ha
  have h2 := aux_commonIndex_key n i hn
  rw [aux_casecmp] at h1 h2
  exact h1.trans h2.symm

theorem aux_set_find (s : MimeStatus) (a c n : List Byte) :
    (s.set a c).find n =
      if SameName a n then
        match commonIndex n with
        | some _ => [⟨a, c⟩]
        | none => s.find n ++ [⟨a, c⟩]
      else s.find n := by
  unfold MimeStatus.set MimeStatus.find
  simp only
  by_cases h : SameName a n
  · rw [if_pos h, aux_commonIndex_same a n h]
    cases hi : commonIndex n with
    | some i => simp
    | none =>
      simp only
      split
      · rename_i hf
        simp only [findChain]
        rw [if_pos ((aux_casecmp _ _).mpr h.symm), aux_findChain_same a n h] at *
        rw [hf]; rfl
      · rename_i hf
        simp only
        rw [aux_findChain_append ⟨a, c⟩ n s.chains hf, if_pos h]
  · rw [if_neg h]
    cases hi : commonIndex n with
    | some i =>
      simp only
      cases ha : commonIndex a with
      | some j =>
        simp only
        rw [if_neg]
        intro hij
        subst hij
        exact h (aux_commonIndex_eq ha hi)
      | none => simp only; split <;> rfl
    | none =>
      simp only
      cases ha : commonIndex a with
      | some j => rfl
      | none =>
        simp only
        split
        · simp only [findChain]
          have := (aux_casecmp_false n a).mpr (fun hx => h hx.symm)
          simp [this]
        · rename_i hf
          simp only
          rw [aux_findChain_append ⟨a, c⟩ n s.chains hf, if_neg h]

/-- The values set for a name. -/
theorem aux_headersAfter_set (ops : List MimeOp) (n c : List Byte) :
    headersAfter (ops ++ [.set n c]) = headersAfter ops ++ [(n, c)] := by
  simp [headersAfter]

theorem aux_valuesOf_append (name n c : List Byte) (hs : List (List Byte × List Byte)) :
    valuesOf name (hs ++ [(n, c)]) =
      if SameName n name then valuesOf name hs ++ [c] else valuesOf name hs := by
  unfold valuesOf
  rw [List.filter_append, List.map_append]
  by_cases h : SameName n name <;> simp [h]

theorem aux_fold_snoc {P : List MimeOp → Prop} (hn : P [])
    (hs : ∀ ops op, (∀ o ∈ ops ++ [op], ∃ n c, o = MimeOp.set n c) → P ops → P (ops ++ [op])) :
    ∀ ops : List MimeOp, (∀ o ∈ ops, ∃ n c, o = MimeOp.set n c) → P ops := by
  intro ops
  rw [← List.reverse_reverse ops]
  induction ops.reverse with
  | nil => intro _; exact hn
  | cons o os ih =>
    intro h
    rw [List.reverse_cons] at h ⊢
    exact hs _ _ h (ih fun x hx => h x (by simp at hx ⊢; exact Or.inl hx))

/-- **C23 (partial)**: as long as nothing is removed, reading a header whose name is not one of the five
well known ones returns the values set for it (names compared ignoring case), in the order they
were set. Missing: well-known names keep only the last value (`C23_last_value`,
`C23_repeated_header_lost`), removal (`C23_remove_keeps`) and the reported size (`C23_size_wrong`). -/
theorem C23_values_partial (ops : List MimeOp) (hset : ∀ o ∈ ops, ∃ n c, o = MimeOp.set n c)
    (name : List Byte) (hk : ∀ k ∈ wellKnown, ¬ SameName name k) :
    (ops.foldl MimeStatus.apply .init).values name = valuesOf name (headersAfter ops) := by
  have hci := aux_commonIndex_none name hk
  revert hset ops
  apply aux_fold_snoc
  · simp [MimeStatus.values, MimeStatus.find, hci, MimeStatus.init, findChain, headersAfter, valuesOf]
  · intro ops op h ih
    obtain ⟨n, c, rfl⟩ := h op (by simp)
    rw [List.foldl_append, aux_headersAfter_set, aux_valuesOf_append]
    simp only [List.foldl_cons, List.foldl_nil, MimeStatus.apply]
    unfold MimeStatus.values at ih ⊢
    rw [aux_set_find, hci]
    by_cases hn : SameName n name
    · simp [hn, ih]
    · simp [hn, ih]

/-- **C23**: for every name, as long as nothing is removed, the last value read is the last one set. -/
theorem C23_last_value (ops : List MimeOp) (hset : ∀ o ∈ ops, ∃ n c, o = MimeOp.set n c)
    (name : List Byte) :
    ((ops.foldl MimeStatus.apply .init).values name).getLast? =
      (valuesOf name (headersAfter ops)).getLast? := by
  revert hset ops
  apply aux_fold_snoc
  · have : (MimeStatus.init).find name = [] := by
      unfold MimeStatus.find; cases commonIndex name <;> rfl
    simp [MimeStatus.values, this, headersAfter, valuesOf]
  · intro ops op h ih
    obtain ⟨n, c, rfl⟩ := h op (by simp)
    rw [List.foldl_append, aux_headersAfter_set, aux_valuesOf_append]
    simp only [List.foldl_cons, List.foldl_nil, MimeStatus.apply]
    unfold MimeStatus.values at ih ⊢
    rw [aux_set_find]
    by_cases hn : SameName n name
    · simp only [hn, if_true]
      cases commonIndex name with
      | some i => simp
      | none => simp
    · simp only [hn, if_false]
      exact ih

example : (([.set (lit "X-A") (lit "1"), .set (lit "x-b") (lit "2"), .set (lit "x-a") (lit "3")] :
    List MimeOp).foldl MimeStatus.apply .init).values (lit "X-a") = [lit "1", lit "3"] := by decide +kernel

/-- **C23 (violation)**: a well-known header set twice keeps only its last value. -/
theorem C23_repeated_header_lost :
    (([.set (lit "Content-ID") (lit "1"), .set (lit "Content-ID") (lit "2")] :
      List MimeOp).foldl MimeStatus.apply .init).values (lit "Content-ID") = [lit "2"] := by decide +kernel

/-- **C23 (violation)**: a removed header can still be read. -/
theorem C23_remove_keeps :
    (([.set (lit "X-A") (lit "1"), .remove (lit "X-A")] :
      List MimeOp).foldl MimeStatus.apply .init).values (lit "X-A") = [lit "1"] := by decide +kernel

/-- **C23 (violation)**: the reported size of one header is 2 octets less than its rendering. -/
theorem C23_size_wrong :
    (([.set (lit "X-A") (lit "1")] : List MimeOp).foldl MimeStatus.apply .init).size = 8 ∧
    (headerBlock [(lit "X-A", lit "1")]).length = 10 := by
  constructor <;> decide +kernel

theorem C23_statement_false : ¬ C23_statement := by
  intro h
  have := (h [.set (lit "X-A") (lit "1"), .remove (lit "X-A")] (lit "X-A")).1
  rw [C23_remove_keeps] at this
  revert this
  decide +kernel

end Verif.Props
