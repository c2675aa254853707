import Verif.Spec.VerifyCert
/-!
# C117 — Verifying the certificate of the peer
-/
namespace Verif.Props
open Verif.Model Verif.Spec

/-- **C117**, the full statement: the call ends, says yes exactly for connections whose certificate was accepted and names the server, and
keeps nothing. -/
def C117_statement : Prop :=
  ∀ (stack : List Byte) (c : VcConn), stack.length = 512 → (∀ s, c.serverName = some s → (0 : Byte) ∉ s) →
    ∃ b, vcVerify stack (some c) = .returned b 0 ∧ (b = true ↔ Certified c)

theorem aux_vc_cmp : ∀ (n r s : List Byte), (0 : Byte) ∉ n → (0 : Byte) ∉ s → vcCmp (n ++ 0 :: r) s = some (decide (n = s))
  | [], r, [], _, _ => rfl
  | [], r, s :: t, _, _ => by simp [vcCmp]
  | a :: n, r, [], hn, _ => by
    have : a ≠ 0 := fun h => hn (by simp [h])
    simp [vcCmp, this]
  | a :: n, r, s :: t, hn, hs => by
    have ha : a ≠ 0 := fun h => hn (by simp [h])
    simp only [List.cons_append, vcCmp, if_neg ha]
    by_cases h : a = s
    · rw [if_pos h, aux_vc_cmp n r t (fun h => hn (List.mem_cons_of_mem _ h)) (fun h => hs (List.mem_cons_of_mem _ h))]
      simp [h]
    · rw [if_neg h]; simp [h]

theorem aux_vc_name (n : List Byte) (rest : List (List Byte)) (stack : List Byte) (h : stack.length = 512) (hl : n.length ≤ 511) :
    ∃ r, vcCommonName (n :: rest) stack = n ++ 0 :: r := by
  have : n.take (stack.length - 1) = n := List.take_of_length_le (by omega)
  refine ⟨stack.drop (n.length + 1), ?_⟩
  simp only [vcCommonName, this]

/-- For certificates with an ordinary common name: the call ends, and says yes exactly when the certificate was accepted by OpenSSL and its
common name is the server name. -/
theorem C117_verify_partial (stack : List Byte) (c : VcConn) (hs : stack.length = 512) (hz : ∀ s, c.serverName = some s → (0 : Byte) ∉ s)
    (hn : PlainName c) : ∃ b k, vcVerify stack (some c) = .returned b k ∧ (b = true ↔ Certified c) := by
  have no : ∀ k, vcVerify stack (some c) = .returned false k → ¬ Certified c →
      ∃ b k, vcVerify stack (some c) = .returned b k ∧ (b = true ↔ Certified c) := fun k e h => ⟨false, k, e, by simp [h]⟩
  cases h1 : c.secured
  · exact no 0 (by simp [vcVerify, h1]) (fun h => by have := h.secured; simp [h1] at this)
  cases h2 : c.ssl
  · exact no 0 (by simp [vcVerify, h1, h2]) (fun h => by have := h.secured; simp [h2] at this)
  cases h3 : c.verified
  · exact no 0 (by simp [vcVerify, h1, h2, h3]) (fun h => by have := h.trusted; simp [h3] at this)
  cases h4 : c.peer with
  | none => exact no 0 (by simp [vcVerify, h1, h2, h3, h4]) (fun h => by obtain ⟨_, _, e, _⟩ := h.named; simp [h4] at e)
  | some names =>
    obtain ⟨n, rest, e, hl, h0⟩ := hn names h4
    cases h5 : c.serverName with
    | none => exact no 1 (by simp [vcVerify, h1, h2, h3, h4, h5]) (fun h => by obtain ⟨_, _, _, e⟩ := h.named; simp [h5] at e)
    | some s =>
      obtain ⟨r, hr⟩ := aux_vc_name n rest stack hs hl
      refine ⟨decide (n = s), 1, ?_, ?_⟩
      · simp only [vcVerify, h1, h2, h3, h4, h5, e, hr, aux_vc_cmp n r s h0 (hz s h5)]; simp
      · rw [decide_eq_true_iff]
        refine ⟨fun h => ⟨⟨h1, h2⟩, h3, n, rest, by rw [h4, e], by rw [h5, h]⟩, fun h => ?_⟩
        obtain ⟨n', r', e1, e2⟩ := h.named
        rw [h4, e] at e1; rw [h5] at e2
        simp at e1 e2
        rw [e1.1, e2]

example : PlainName ⟨true, true, true, some [lit "beep.example.com"], some (lit "beep.example.com")⟩ ∧
    Certified ⟨true, true, true, some [lit "beep.example.com"], some (lit "beep.example.com")⟩ :=
  ⟨by intro n h; simp at h; exact ⟨_, [], h.symm, by decide, by decide⟩, ⟨⟨rfl, rfl⟩, rfl, _, [], rfl, rfl⟩⟩

/-- Whatever the certificate says: a call that says yes found TLS, a certificate that OpenSSL accepted, and a server name to compare with. -/
theorem C117_trusted_partial (stack : List Byte) (c : VcConn) (k : Nat) (h : vcVerify stack (some c) = .returned true k) :
    c.secured = true ∧ c.ssl = true ∧ c.verified = true ∧ c.peer ≠ none ∧ c.serverName ≠ none := by
  cases h1 : c.secured <;> cases h2 : c.ssl <;> cases h3 : c.verified <;> cases h4 : c.peer <;> cases h5 : c.serverName <;>
    simp [vcVerify, h1, h2, h3, h4, h5] at h ⊢

/-- With a certificate that has a common name the call always ends, and without a connection it says no. -/
theorem C117_ends_partial (stack : List Byte) (c : VcConn) (hn : ∀ names, c.peer = some names → names ≠ []) :
    vcVerify stack (some c) ≠ .crash ∧ vcVerify stack none = .returned false 0 := by
  refine ⟨?_, rfl⟩
  cases h1 : c.secured <;> cases h2 : c.ssl <;> cases h3 : c.verified <;> cases h4 : c.peer <;> cases h5 : c.serverName <;>
    simp [vcVerify, h1, h2, h3, h4, h5]
  rename_i names s
  have key : ∀ (t r s : List Byte), vcCmp (t ++ 0 :: r) s ≠ none := by
    intro t
    induction t with
    | nil => intro r s; cases s <;> simp [vcCmp]
    | cons a t ih =>
      intro r s
      cases s with
      | nil => simp [vcCmp]
      | cons x s =>
        simp only [List.cons_append, vcCmp]
        split
        · simp
        · split
          · exact ih r s
          · simp
  cases names with
  | nil => exact absurd rfl (hn _ h4)
  | cons n rest =>
    cases h : vcCmp (vcCommonName (n :: rest) stack) s with
    | none => exact absurd h (key _ _ _)
    | some b => simp

/-- Violation: a certificate issued for `good.org`, NUL, `.evil.org` is verified as that of `good.org`. -/
theorem C117_nul (stack : List Byte) (hs : stack.length = 512) :
    let c : VcConn := ⟨true, true, true, some [lit "good.org" ++ 0 :: lit ".evil.org"], some (lit "good.org")⟩
    vcVerify stack (some c) = .returned true 1 ∧ ¬ Certified c := by
  refine ⟨?_, ?_⟩
  · obtain ⟨r, hr⟩ := aux_vc_name (lit "good.org" ++ 0 :: lit ".evil.org") [] stack hs (by decide)
    simp only [vcVerify, hr, List.append_assoc, List.cons_append, aux_vc_cmp (lit "good.org") _ (lit "good.org") (by decide) (by decide)]
    simp
  · rintro ⟨_, _, n, r, h1, h2⟩
    simp at h1 h2
    rw [← h1.1] at h2
    exact absurd h2 (by decide)

/-- Violation: a certificate without common name is verified when the stack still has the name from an earlier call. -/
theorem C117_no_name (stack : List Byte) (name : List Byte) (h0 : (0 : Byte) ∉ name) :
    let c : VcConn := ⟨true, true, true, some [], some name⟩
    vcVerify (name ++ 0 :: stack) (some c) = .returned true 1 ∧ ¬ Certified c := by
  refine ⟨?_, ?_⟩
  · simp only [vcVerify, vcCommonName, aux_vc_cmp name stack name h0 h0]; simp
  · rintro ⟨_, _, n, r, h1, h2⟩; simp at h1

/-- Violation: and the call may read behind the buffer. -/
theorem C117_no_name_crash (name : List Byte) (hl : 512 ≤ name.length) (h0 : (0 : Byte) ∉ name) :
    vcVerify (name.take 512) (some ⟨true, true, true, some [], some name⟩) = .crash := by
  have key : ∀ (k : Nat) (s : List Byte), k ≤ s.length → (0 : Byte) ∉ s → vcCmp (s.take k) s = none := by
    intro k
    induction k with
    | zero => intro s _ _; cases s <;> rfl
    | succ k ih =>
      intro s h h0
      cases s with
      | nil => simp at h
      | cons a s =>
        have ha : a ≠ 0 := fun h => h0 (by simp [h])
        simp only [List.take_succ_cons, vcCmp, if_neg ha, if_true]
        exact ih s (by simpa using h) (fun h => h0 (List.mem_cons_of_mem _ h))
  simp only [vcVerify, vcCommonName, key 512 name hl h0]; simp

example : 512 ≤ (List.replicate 512 (97 : Byte)).length ∧ (0 : Byte) ∉ List.replicate 512 (97 : Byte) := by
  refine ⟨by rw [List.length_replicate]; exact Nat.le_refl _, ?_⟩; rw [List.mem_replicate]; exact fun h => absurd h.2 (by decide)

/-- Violation: of a common name only the first 511 octets are compared. -/
theorem C117_truncated (stack : List Byte) (s more : List Byte) (hs : stack.length = 512) (hl : s.length = 511) (h0 : (0 : Byte) ∉ s)
    (hm : more ≠ []) :
    let c : VcConn := ⟨true, true, true, some [s ++ more], some s⟩
    vcVerify stack (some c) = .returned true 1 ∧ ¬ Certified c := by
  refine ⟨?_, ?_⟩
  · have e : (s ++ more).take (stack.length - 1) = s := by
      rw [hs, show 512 - 1 = s.length by omega, List.take_left]
    simp only [vcVerify, vcCommonName, e, aux_vc_cmp s _ s h0 h0]; simp
  · rintro ⟨_, _, n, r, h1, h2⟩
    simp at h1 h2
    have := congrArg List.length (h2.trans h1.1.symm)
    rw [List.length_append] at this
    exact hm (List.length_eq_zero_iff.mp (by omega))

/-- Violation: every call that gets a certificate keeps a reference to it. -/
theorem C117_kept (stack : List Byte) (c : VcConn) (b : Bool) (k : Nat) (hp : c.secured = true ∧ c.ssl = true ∧ c.verified = true)
    (hc : c.peer ≠ none) (h : vcVerify stack (some c) = .returned b k) : k = 1 := by
  obtain ⟨h1, h2, h3⟩ := hp
  cases h4 : c.peer with
  | none => exact absurd h4 hc
  | some names =>
    cases h5 : c.serverName with
    | none => simp [vcVerify, h1, h2, h3, h4, h5] at h; omega
    | some s =>
      cases h6 : vcCmp (vcCommonName names stack) s with
      | none => simp [vcVerify, h1, h2, h3, h4, h5, h6] at h
      | some b => simp [vcVerify, h1, h2, h3, h4, h5, h6] at h; omega

theorem C117_statement_false : ¬ C117_statement := by
  intro h
  have l : (List.replicate 512 (0 : Byte)).length = 512 := List.length_replicate
  obtain ⟨b, e, i⟩ := h (List.replicate 512 0) ⟨true, true, true, some [lit "good.org" ++ 0 :: lit ".evil.org"], some (lit "good.org")⟩
    l (by intro s h; simp at h; rw [← h]; decide)
  have v := C117_nul (List.replicate 512 0) l
  rw [v.1] at e
  cases e

end Verif.Props
