import Verif.Model.FrameOps
/-!
# C24 — copying, joining and comparing frames
-/
namespace Verif.Props
open Verif.Model

/-- A frame whose pointers and sizes agree: the payload has the recorded size, and when MIME processing
moved the payload, the content is the header octets followed by the payload. -/
structure WellFormed (f : VFrame) : Prop where
  payload : ∀ p, f.payload = some p → (p.length : Int) = f.size
  null : f.payload = none → f.size = 0 ∧ f.content = none
  content : ∀ c, f.content = some c → ∃ h p, f.payload = some p ∧ c = h ++ p ∧ (h.length : Int) = f.mimeSize ∧
    0 < f.mimeSize
  noContent : f.content = none → f.mimeSize = 0

/-- **C24 (full statement, violated)**: a copy is equal to its original, frames that compare equal carry the
same octets, and a joined frame carries both payloads and is joinable with what the second was joinable with. -/
def C24_statement : Prop :=
  (∀ f, WellFormed f → f.equal f.copy = true) ∧
  (∀ a b, WellFormed a → WellFormed b → a.equal b = true → a.payload = b.payload) ∧
  (∀ a b r, WellFormed a → WellFormed b → a.join b = some r →
    r.payload = some (a.payload.getD [] ++ b.payload.getD []) ∧ ∀ c, r.joinable c = b.joinable c)

theorem aux_check_refl (a : Option (List Byte)) : commonStringCheck a a = true := by
  cases a <;> simp [commonStringCheck]

theorem aux_check_symm (a b : Option (List Byte)) : commonStringCheck a b = commonStringCheck b a := by
  cases a with
  | none => cases b <;> rfl
  | some a =>
    cases b with
    | none => rfl
    | some b =>
      show (cstr a == cstr b) = (cstr b == cstr a)
      exact Bool.beq_comm

theorem aux_check_trans {a b c : Option (List Byte)} (h1 : commonStringCheck a b = true)
    (h2 : commonStringCheck b c = true) : commonStringCheck a c = true := by
  cases a <;> cases b <;> cases c <;> simp_all [commonStringCheck]

theorem aux_fo_equal_iff (a b : VFrame) : a.equal b = true ↔
    a.type = b.type ∧ a.more = b.more ∧ a.channel = b.channel ∧ a.msgno = b.msgno ∧ a.seqno = b.seqno ∧
    a.size = b.size ∧ a.ansno = b.ansno ∧ commonStringCheck a.contentType b.contentType = true ∧
    commonStringCheck a.transferEncoding b.transferEncoding = true ∧
    commonStringCheck a.payload b.payload = true := by
  unfold VFrame.equal
  constructor
  · intro h
    repeat' split at h
    all_goals first
      | contradiction
      | (simp_all)
  · rintro ⟨h1, h2, h3, h4, h5, h6, h7, h8, h9, h10⟩
    simp [h1, h2, h3, h4, h5, h6, h7, h8, h9, h10]

theorem aux_fo_check (a b : Option (List Byte)) : commonStringCheck a b = true ↔ a.map cstr = b.map cstr := by
  cases a <;> cases b <;> simp [commonStringCheck]

/-- What comparing equal means, field by field; texts are compared up to the first zero octet. -/
theorem C24_equal_iff (a b : VFrame) : a.equal b = true ↔
    a.type = b.type ∧ a.more = b.more ∧ a.channel = b.channel ∧ a.msgno = b.msgno ∧ a.seqno = b.seqno ∧
    a.size = b.size ∧ a.ansno = b.ansno ∧ a.contentType.map cstr = b.contentType.map cstr ∧
    a.transferEncoding.map cstr = b.transferEncoding.map cstr ∧ a.payload.map cstr = b.payload.map cstr := by
  rw [aux_fo_equal_iff, aux_fo_check, aux_fo_check, aux_fo_check]

/-- **C24**: frame equality is an equivalence relation, on all frames. -/
theorem C24_equivalence :
    (∀ a : VFrame, a.equal a = true) ∧
    (∀ a b : VFrame, a.equal b = true → b.equal a = true) ∧
    (∀ a b c : VFrame, a.equal b = true → b.equal c = true → a.equal c = true) := by
  refine ⟨?_, ?_, ?_⟩
  · intro a; rw [aux_fo_equal_iff]; simp [aux_check_refl]
  · intro a b h
    rw [aux_fo_equal_iff] at h ⊢
    rw [aux_check_symm b.contentType, aux_check_symm b.transferEncoding, aux_check_symm b.payload]
    simp [h]
  · intro a b c h1 h2
    rw [aux_fo_equal_iff] at h1 h2 ⊢
    obtain ⟨a1, a2, a3, a4, a5, a6, a7, a8, a9, a10⟩ := h1
    obtain ⟨b1, b2, b3, b4, b5, b6, b7, b8, b9, b10⟩ := h2
    exact ⟨a1.trans b1, a2.trans b2, a3.trans b3, a4.trans b4, a5.trans b5, a6.trans b6, a7.trans b7,
      aux_check_trans a8 b8, aux_check_trans a9 b9, aux_check_trans a10 b10⟩

theorem aux_cstr {s : List Byte} (h : NUL ∉ s) : cstr s = s := by
  unfold cstr
  induction s with
  | nil => rfl
  | cons b s ih =>
    have hb : b ≠ NUL := by intro e; exact h (by simp [e])
    have hs : NUL ∉ s := by intro e; exact h (by simp [e])
    rw [List.takeWhile_cons_of_pos (by simpa using hb), ih hs]

/-- **C24 (partial)**: frames that compare equal and carry text (no zero octet) have the same header
fields and the same payload. Missing: payloads with zero octets, see `C24_equal_ignores_payload`. -/
theorem C24_equal_payload_partial (a b : VFrame) (p q : List Byte) (ha : a.payload = some p)
    (hb : b.payload = some q) (hp : NUL ∉ p) (hq : NUL ∉ q) (h : a.equal b = true) : p = q := by
  rw [aux_fo_equal_iff] at h
  have := h.2.2.2.2.2.2.2.2.2
  rw [ha, hb] at this
  simp only [commonStringCheck, beq_iff_eq, aux_cstr hp, aux_cstr hq] at this
  exact this

/-- **C24 (partial)**: copying a frame that is the last of its message (`more` is not set) and has
either a payload or no payload pointer gives a frame that compares equal and carries the same octets.
Missing: frames with `more` set and empty payloads, see `C24_copy_not_equal`. -/
theorem C24_copy_partial (f : VFrame) (hw : WellFormed f) (hm : f.more = false)
    (hp : f.size > 0 ∨ f.payload = none ∨ f.content.isSome) :
    f.equal f.copy = true ∧ f.copy.payload = f.payload ∧ f.copy.content = f.content := by
  cases hc : f.content with
  | none =>
    have hpay : (if f.size > 0 then f.payload.map (·.take f.size.toNat) else none) = f.payload := by
      cases hpp : f.payload with
      | none => simp
      | some p =>
        have hl := hw.payload p hpp
        have : f.size > 0 := by
          rcases hp with h | h | h
          · exact h
          · rw [hpp] at h; simp at h
          · rw [hc] at h; simp at h
        rw [if_pos this]
        simp only [Option.map_some, Option.some.injEq]
        apply List.take_of_length_le
        omega
    have hcp : f.copy = { createFull f.type f.channel f.msgno f.more f.seqno f.size f.ansno f.payload with
        mime := f.mime } := by
      unfold VFrame.copy; rw [hc]
    refine ⟨?_, ?_, ?_⟩
    · rw [aux_fo_equal_iff, hcp]
      simp only [createFull, hm, hpay, VFrame.contentType, VFrame.transferEncoding, hc]
      simp [aux_check_refl]
    · rw [hcp]; simpa [createFull] using hpay
    · rw [hcp]; simp [createFull]
  | some c =>
    obtain ⟨h, p, hpp, hcc, hh, hpos⟩ := hw.content c hc
    have hl := hw.payload p hpp
    have hs : f.size + f.mimeSize > 0 := by omega
    have hcl : (c.length : Int) = f.size + f.mimeSize := by rw [hcc]; simp; omega
    have htake : c.take (f.size + f.mimeSize).toNat = c := by
      apply List.take_of_length_le; omega
    have hdrop : c.drop (f.size + f.mimeSize - f.size).toNat = p := by
      have : (f.size + f.mimeSize - f.size).toNat = h.length := by omega
      rw [this, hcc]; simp
    have e1 : f.copy.payload = some p := by
      unfold VFrame.copy
      rw [hc]
      simp only [createFull, if_pos hs, Option.map_some, htake, hdrop]
    have e2 : f.copy.content = some c := by
      unfold VFrame.copy
      rw [hc]
      simp only [createFull, if_pos hs, Option.map_some, htake]
    refine ⟨?_, by rw [e1, hpp], by rw [e2]⟩
    rw [aux_fo_equal_iff]
    have e3 : f.copy.mime = f.mime := by unfold VFrame.copy; rw [hc]
    have e4 : f.copy.contentType = f.contentType := by
      simp only [VFrame.contentType, e2, e3, hc]
    have e5 : f.copy.transferEncoding = f.transferEncoding := by
      simp only [VFrame.transferEncoding, e2, e3, hc]
    rw [e1, e4, e5, hpp]
    refine ⟨?_, ?_, ?_, ?_, ?_, ?_, ?_, aux_check_refl _, aux_check_refl _, aux_check_refl _⟩
    all_goals (unfold VFrame.copy; rw [hc]; try simp [createFull, hm])

/-- A received frame, for the examples below. -/
def sample (more : Bool) (payload : List Byte) : VFrame :=
  ⟨.msg, 1, 4, more, 100, payload.length, 0, 0, some payload, none, none⟩

theorem aux_sample_wf (more : Bool) (payload : List Byte) : WellFormed (sample more payload) :=
  ⟨by intro p h; simp only [sample, Option.some.injEq] at h; subst h; rfl, by intro h; simp [sample] at h,
   by intro c h; simp [sample] at h, fun _ => rfl⟩

/-- **C24 (violation)**: the copy of a frame with `more` set, and the copy of a frame without content, are
not equal to the original. -/
theorem C24_copy_not_equal :
    (sample true (lit "part")).equal (sample true (lit "part")).copy = false ∧
    (sample false []).equal (sample false []).copy = false := by
  constructor <;> decide +kernel

/-- **C24 (violation)**: frames with different payloads compare equal when they agree up to a zero octet. -/
theorem C24_equal_ignores_payload :
    (sample false [65, 0, 66]).equal (sample false [65, 0, 67]) = true := by decide +kernel

theorem C24_statement_false : ¬ C24_statement := by
  intro h
  have := h.1 _ (aux_sample_wf true (lit "part"))
  rw [C24_copy_not_equal.1] at this
  cases this

theorem aux_joinable (a b : VFrame) : a.joinable b = true ↔
    a.type = b.type ∧ a.more = true ∧ a.channel = b.channel ∧ a.msgno = b.msgno ∧ a.ansno = b.ansno ∧
    u32 (a.seqno + a.size + a.mimeSize) = b.seqno := by
  unfold VFrame.joinable
  constructor
  · intro h
    repeat' split at h
    all_goals first
      | contradiction
      | (cases hm : a.more <;> cases hm2 : b.more <;> simp_all)
  · rintro ⟨h1, h2, h3, h4, h5, h6⟩
    simp [h1, h2, h3, h4, h5, h6]

/-- **C24**: joining two frames works exactly when they are consecutive fragments of one message, and
the result carries both payloads, the position of the first, and continues exactly where the second
continued: it can be joined with the same frames (`b` not being MIME processed, as is any
fragment after the first). -/
theorem C24_join (a b : VFrame) (wa : WellFormed a) (wb : WellFormed b) :
    ((a.join b).isSome ↔ a.type = b.type ∧ a.more = true ∧ a.channel = b.channel ∧ a.msgno = b.msgno ∧
      a.ansno = b.ansno ∧ ((a.seqno : Int) + a.size + a.mimeSize) % 4294967296 = b.seqno) ∧
    (∀ r, a.join b = some r →
      r.payload = some (a.payload.getD [] ++ b.payload.getD []) ∧ r.size = (r.payload.getD []).length ∧
      r.seqno = a.seqno ∧ r.more = b.more ∧ r.type = a.type ∧ r.msgno = a.msgno ∧ r.ansno = a.ansno ∧
      r.channel = a.channel ∧ r.mimeSize = a.mimeSize ∧
      (b.mimeSize = 0 → ∀ c, (r.join c).isSome = (b.join c).isSome)) := by
  have hu : ∀ (x : Int) (n : Nat), u32 x = n ↔ x % 4294967296 = n := by
    intro x n; unfold u32; omega
  constructor
  · unfold VFrame.join
    rw [← hu, ← aux_joinable]
    split <;> simp_all
  · intro r hr
    unfold VFrame.join at hr
    split at hr
    · rename_i hj
      rw [aux_joinable] at hj
      obtain ⟨h1, h2, h3, h4, h5, h6⟩ := hj
      simp only [Option.some.injEq] at hr
      subst hr
      have la : ((a.payload.getD []).length : Int) = a.size := by
        cases hp : a.payload with
        | none => have := wa.null hp; simp; omega
        | some p => simpa using wa.payload p hp
      have lb : ((b.payload.getD []).length : Int) = b.size := by
        cases hp : b.payload with
        | none => have := wb.null hp; simp; omega
        | some p => simpa using wb.payload p hp
      refine ⟨rfl, ?_, rfl, by simp [h2], rfl, rfl, rfl, rfl, rfl, ?_⟩
      · simp only [Option.getD_some, List.length_append]; omega
      · intro hb c
        have hj : ∀ x : VFrame, (x.join c).isSome = x.joinable c := by
          intro x; unfold VFrame.join; split <;> simp_all
        rw [hj, hj, Bool.eq_iff_iff, aux_joinable, aux_joinable]
        simp only [h2, h1, h3, h4, h5, Bool.true_and]
        have : u32 ((a.seqno : Int) + (a.size + b.size) + a.mimeSize) = u32 (b.seqno + b.size + b.mimeSize) := by
          unfold u32 at h6 ⊢
          omega
        rw [this]
    · simp at hr

-- joining two fragments
example : ((sample true (lit "ab")).join { sample false (lit "cd") with seqno := 102 }).map (·.payload) =
    some (some (lit "abcd")) := by decide +kernel
example : WellFormed { sample true (lit "body") with mimeSize := 2, content := some (lit "\r\nbody") } :=
  ⟨by intro p h; simp only [sample, Option.some.injEq] at h; subst h; rfl, by intro h; simp [sample] at h,
   by
    intro c h
    simp only [Option.some.injEq] at h
    exact ⟨lit "\r\n", lit "body", rfl, by rw [← h]; rfl, rfl, by decide⟩,
   by intro h; simp at h⟩

end Verif.Props
