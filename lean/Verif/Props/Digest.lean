import Verif.Model.Digest
import Verif.Spec.Digest
/-!
# C113: digests and fingerprints
-/
namespace Verif.Props
open Verif.Model Verif.Spec

theorem aux_dg_digit (d : Nat) (h : d < 16) : upperHexDigit d = hexOf d ∧ hexOf d ≠ 0 := by
  have : ∀ d : Fin 16, upperHexDigit d.1 = hexOf d.1 ∧ hexOf d.1 ≠ 0 := by decide +kernel
  exact this ⟨d, h⟩

theorem aux_dg_inj (a b : Nat) (ha : a < 16) (hb : b < 16) (h : hexOf a = hexOf b) : a = b := by
  have : ∀ a b : Fin 16, hexOf a.1 = hexOf b.1 → a = b := by decide +kernel
  have := this ⟨a, ha⟩ ⟨b, hb⟩ h
  exact congrArg Fin.val this

theorem aux_dg_byte (b : Byte) : b.toNat / 16 < 16 ∧ b.toNat % 16 < 16 := by
  have := UInt8.toNat_lt b
  omega

theorem aux_dg_u32 (n : Nat) (h : n < 4294967296) : u32 (n : Int) = n := by
  unfold u32; omega

theorem aux_dg_sprintf (P text : List Byte) (n : Nat) :
    sprintfAt (P ++ List.replicate (text.length + 1 + n) 0) P.length text = some (P ++ (text ++ 0 :: List.replicate n 0)) := by
  unfold sprintfAt
  rw [if_pos (by simp; omega), List.take_append_of_le_length (Nat.le_refl _), List.take_length, Nat.add_assoc, List.drop_append, List.drop_eq_nil_of_le (by omega)]
  congr 5
  rw [List.nil_append, List.drop_replicate]
  congr 1
  omega

theorem aux_dg_loop (len : Nat) (rest : List Byte) (iterator : Nat) (P : List Byte) (hp : P.length = iterator * 3)
    (hl : iterator + rest.length = len) (hb : len * 3 + 1 < 4294967296) (hne : rest ≠ []) :
    octalLoop len rest iterator (P ++ List.replicate (rest.length * 3 + 1) 0) = some (P ++ fingerprintText rest ++ [0, 0]) := by
  induction rest generalizing iterator P with
  | nil => exact absurd rfl hne
  | cons b r ih =>
    obtain ⟨h1, h2⟩ := aux_dg_byte b
    have e1 : u32 ((iterator : Int) * 3) = iterator * 3 := by
      have := aux_dg_u32 (iterator * 3) (by simp at hl; omega)
      simpa using this
    have e2 : u32 ((iterator : Int) + 1) = iterator + 1 := by
      have := aux_dg_u32 (iterator + 1) (by simp at hl; omega)
      simpa using this
    simp only [octalLoop, e1, e2, (aux_dg_digit _ h1).1, (aux_dg_digit _ h2).1]
    cases r with
    | nil =>
      have e3 : iterator + 1 = len := by simpa using hl
      have : sprintfAt (P ++ List.replicate (([b] : List Byte).length * 3 + 1) 0) (iterator * 3)
          (hexOf (b.toNat / 16) :: hexOf (b.toNat % 16) :: (if iterator + 1 ≠ len then [58] else [])) =
          some (P ++ fingerprintText [b] ++ [0, 0]) := by
        have := aux_dg_sprintf P [hexOf (b.toNat / 16), hexOf (b.toNat % 16)] 1
        rw [hp] at this
        simp only [e3, ne_eq, not_true_eq_false, if_false]
        simpa [fingerprintText] using this
      rw [this]
      rfl
    | cons c r =>
      have e3 : iterator + 1 ≠ len := by simp at hl; omega
      have : sprintfAt (P ++ List.replicate ((b :: c :: r).length * 3 + 1) 0) (iterator * 3)
          (hexOf (b.toNat / 16) :: hexOf (b.toNat % 16) :: (if iterator + 1 ≠ len then [58] else [])) =
          some ((P ++ [hexOf (b.toNat / 16), hexOf (b.toNat % 16), 58]) ++ List.replicate ((c :: r).length * 3 + 1) 0) := by
        have := aux_dg_sprintf P [hexOf (b.toNat / 16), hexOf (b.toNat % 16), 58] ((c :: r).length * 3)
        have e4 : (b :: c :: r).length * 3 + 1 = 3 + 1 + (c :: r).length * 3 := by simp; omega
        rw [hp] at this
        rw [if_pos e3, e4]
        rw [List.replicate_succ, List.append_assoc]
        exact this
      rw [this]
      have := ih (iterator + 1) (P ++ [hexOf (b.toNat / 16), hexOf (b.toNat % 16), 58]) (by simp [hp]; omega) (by simp at hl ⊢; omega) (by simp)
      simp only [this]
      simp [fingerprintText, lit]

theorem aux_dg_nonzero (d : List Byte) : ∀ c, c ∈ fingerprintText d → c ≠ 0 := by
  induction d with
  | nil => intro c hc; simp [fingerprintText] at hc
  | cons b r ih =>
    obtain ⟨h1, h2⟩ := aux_dg_byte b
    intro c hc
    cases r with
    | nil =>
      simp [fingerprintText] at hc
      rcases hc with rfl | rfl
      · exact (aux_dg_digit _ h1).2
      · exact (aux_dg_digit _ h2).2
    | cons x r =>
      have e : lit ":" = [58] := by decide +kernel
      simp only [fingerprintText, e, List.cons_append, List.nil_append, List.mem_cons] at hc
      rcases hc with rfl | rfl | rfl | hc
      · exact (aux_dg_digit _ h1).2
      · exact (aux_dg_digit _ h2).2
      · decide
      · exact ih c hc

theorem aux_dg_takeWhile (a : List Byte) (h : ∀ c, c ∈ a → c ≠ 0) (r : List Byte) :
    (a ++ 0 :: r).takeWhile (fun c => decide (c ≠ 0)) = a := by
  induction a with
  | nil => simp
  | cons x a ih =>
    have := h x (List.mem_cons_self ..)
    rw [List.cons_append, List.takeWhile_cons_of_pos (by simpa using this), ih (fun c hc => h c (List.mem_cons_of_mem _ hc))]

theorem aux_dg_translate (d : List Byte) (h : d.length * 3 + 1 < 4294967296) : translateToOctal d = some (fingerprintText d) := by
  unfold translateToOctal
  have e : u32 ((d.length : Int) * 3 + 1) = d.length * 3 + 1 := by
    have := aux_dg_u32 (d.length * 3 + 1) h
    simpa using this
  rw [e]
  cases d with
  | nil => rfl
  | cons b r =>
    have := aux_dg_loop (b :: r).length (b :: r) 0 [] rfl (by simp) h (by simp)
    rw [List.nil_append, List.nil_append] at this
    rw [this]
    simp only [Option.map_some]
    have := aux_dg_takeWhile _ (aux_dg_nonzero (b :: r)) [0]
    exact congrArg some this

theorem aux_dg_ofOctets (d : List Byte) (k : Nat) (h : d.length * 3 + 1 < 4294967296) : DigestEnd.ofOctets d k = .returned (some (fingerprintText d)) k := by
  unfold DigestEnd.ofOctets; rw [aux_dg_translate d h]

/-- Two digests with the same text are the same. -/
theorem C113_text_injective (a b : List Byte) (h : fingerprintText a = fingerprintText b) : a = b := by
  have e : lit ":" = [58] := by decide +kernel
  have byte : ∀ x y : Byte, hexOf (x.toNat / 16) = hexOf (y.toNat / 16) → hexOf (x.toNat % 16) = hexOf (y.toNat % 16) → x = y := by
    intro x y h1 h2
    obtain ⟨a1, a2⟩ := aux_dg_byte x
    obtain ⟨b1, b2⟩ := aux_dg_byte y
    have q1 := aux_dg_inj _ _ a1 b1 h1
    have q2 := aux_dg_inj _ _ a2 b2 h2
    apply UInt8.toNat_inj.1
    omega
  induction a generalizing b with
  | nil =>
    cases b with
    | nil => rfl
    | cons y r => cases r <;> simp [fingerprintText] at h
  | cons x r ih =>
    cases b with
    | nil => cases r <;> simp [fingerprintText] at h
    | cons y s =>
      cases r with
      | nil =>
        cases s with
        | nil =>
          simp [fingerprintText] at h
          rw [byte x y h.1 h.2]
        | cons y2 s => simp [fingerprintText, e] at h
      | cons x2 r =>
        cases s with
        | nil => simp [fingerprintText, e] at h
        | cons y2 s =>
          simp only [fingerprintText, e, List.cons_append, List.nil_append, List.cons.injEq, true_and] at h
          rw [byte x y h.1 h.2.1, ih (y2 :: s) h.2.2]

/-- C113: each of the functions ends without crash, returns NULL or the text of the digest of what it was given, and keeps nothing of OpenSSL;
so that texts are equal exactly if the digests are. -/
def C113_statement : Prop :=
  (∀ H m string, (∀ m s, (H m s).length ≤ 64) → m ≠ .num → getDigest H m string = .returned (string.map (fun s => fingerprintText (H m s))) 0) ∧
  (∀ H m (content : List Byte) (size : Int), (∀ m s, (H m s).length ≤ 64) → m ≠ .num → size ≤ content.length →
    getDigestSized H m (some content) size = .returned (some (fingerprintText (H m (content.take size.toNat)))) 0) ∧
  (∀ X m (cert : List Byte), (∀ m c d, X m c = some d → d.length ≤ 64) → m ≠ .num →
    getPeerDigest X m true (some cert) = .returned ((X m cert).map fingerprintText) 0 ∧
    getFileDigest X m (some cert) = .returned ((X m cert).map fingerprintText) 0)

/-- The digest of a string shorter than 2 GB (EVP_MAX_MD_SIZE is 64). Missing: NULL, longer strings. -/
theorem C113_string_partial (H : DigestMethod → List Byte → List Byte) (m : DigestMethod) (s : List Byte)
    (hH : ∀ m s, (H m s).length ≤ 64) (hm : m ≠ .num) (hs : s.length < 2147483648) :
    getDigest H m (some s) = .returned (some (fingerprintText (H m s))) 0 := by
  have e : u64 (i32 (s.length : Int)) = s.length := by unfold u64 i32; omega
  have h := hH m s
  cases m with
  | num => exact absurd rfl hm
  | _ =>
    simp only [getDigest, getDigestSized, e]
    rw [if_neg (by simp)]
    rw [List.take_append_of_le_length (Nat.le_refl _), List.take_length]
    exact aux_dg_ofOctets _ _ (by omega)

/-- The digest of the first octets of a buffer. Missing: negative sizes. -/
theorem C113_sized_partial (H : DigestMethod → List Byte → List Byte) (m : DigestMethod) (content : List Byte) (size : Int)
    (hH : ∀ m s, (H m s).length ≤ 64) (hm : m ≠ .num) (h0 : 0 ≤ size) (h1 : size < 2147483648) (hs : size ≤ content.length) :
    getDigestSized H m (some content) size = .returned (some (fingerprintText (H m (content.take size.toNat)))) 0 := by
  have e : u64 size = size.toNat := by unfold u64; omega
  have h := hH m (content.take size.toNat)
  cases m with
  | num => exact absurd rfl hm
  | _ =>
    simp only [getDigestSized, e]
    rw [if_neg (by omega)]
    exact aux_dg_ofOctets _ _ (by omega)

/-- The fingerprint of the certificate of a file: its text, or NULL if there is no certificate or no digest, and nothing kept. -/
theorem C113_file (X : DigestMethod → List Byte → Option (List Byte)) (m : DigestMethod) (file : Option (List Byte))
    (hX : ∀ m c d, X m c = some d → d.length ≤ 64) (hm : m ≠ .num) :
    getFileDigest X m file = .returned ((file.bind (X m)).map fingerprintText) 0 := by
  cases m with
  | num => exact absurd rfl hm
  | _ =>
    cases file with
    | none => rfl
    | some c =>
      simp only [getFileDigest]
      cases h : X _ c with
      | none => simp [h]
      | some d =>
        have := hX _ _ _ h
        simp only
        rw [aux_dg_ofOctets _ _ (by omega)]
        simp [h]

/-- The fingerprint of the peer. Missing: the certificate is kept. -/
theorem C113_peer_partial (X : DigestMethod → List Byte → Option (List Byte)) (m : DigestMethod) (ssl : Bool) (cert : Option (List Byte))
    (hX : ∀ m c d, X m c = some d → d.length ≤ 64) (hm : m ≠ .num) :
    ∃ kept, getPeerDigest X m ssl cert = .returned (if ssl then (cert.bind (X m)).map fingerprintText else none) kept := by
  cases m with
  | num => exact absurd rfl hm
  | _ =>
    cases ssl with
    | false => exact ⟨0, rfl⟩
    | true =>
      cases cert with
      | none => exact ⟨0, rfl⟩
      | some c =>
        refine ⟨1, ?_⟩
        simp only [getPeerDigest]
        cases h : X _ c with
        | none => simp [h]
        | some d =>
          have := hX _ _ _ h
          simp only
          rw [aux_dg_ofOctets _ _ (by omega)]
          simp [h]

/-- Checking a peer against the fingerprint of a file: the texts are the same exactly if the digests of the two certificates are. -/
theorem C113_match (X : DigestMethod → List Byte → Option (List Byte)) (m : DigestMethod) (peer file : List Byte) (t t' : List Byte) (k k' : Nat)
    (hX : ∀ m c d, X m c = some d → d.length ≤ 64) (hm : m ≠ .num)
    (h1 : getPeerDigest X m true (some peer) = .returned (some t) k) (h2 : getFileDigest X m (some file) = .returned (some t') k') :
    t = t' ↔ X m peer = X m file := by
  obtain ⟨q, e⟩ := C113_peer_partial X m true (some peer) hX hm
  rw [e] at h1
  rw [C113_file X m (some file) hX hm] at h2
  simp only [if_true, Option.bind_some, DigestEnd.returned.injEq] at h1 h2
  have h1 := h1.1
  have h2 := h2.1
  cases hp : X m peer with
  | none => rw [hp] at h1; cases h1
  | some d =>
    cases hf : X m file with
    | none => rw [hf] at h2; cases h2
    | some d' =>
      rw [hp] at h1; rw [hf] at h2
      simp at h1 h2
      subst h1 h2
      simp only [Option.some.injEq]
      exact ⟨fun h => C113_text_injective _ _ h, fun h => by rw [h]⟩

/-- `VORTEX_DIGEST_NUM` gives NULL, except that the certificate of the peer is kept. -/
theorem C113_no_method (H : DigestMethod → List Byte → List Byte) (X : DigestMethod → List Byte → Option (List Byte)) (content : Option (List Byte))
    (size : Int) (file : Option (List Byte)) :
    getDigestSized H .num content size = .returned none 0 ∧ getFileDigest X .num file = .returned none 0 := by
  refine ⟨?_, rfl⟩
  cases content <;> rfl

/-- Each question for the fingerprint of a peer that has a certificate keeps a reference to it. -/
theorem C113_peer_leak (X : DigestMethod → List Byte → Option (List Byte)) (m : DigestMethod) (cert : List Byte)
    (hX : ∀ m c d, X m c = some d → d.length ≤ 64) :
    ∃ t, getPeerDigest X m true (some cert) = .returned t 1 := by
  cases m with
  | num => exact ⟨_, rfl⟩
  | _ =>
    simp only [getPeerDigest]
    cases h : X _ cert with
    | none => exact ⟨_, rfl⟩
    | some d =>
      have := hX _ _ _ h
      simp only
      rw [aux_dg_ofOctets _ _ (by omega)]
      exact ⟨_, rfl⟩

/-- NULL crashes the function without size, whatever the method; the one with size returns NULL. -/
theorem C113_null_crash (H : DigestMethod → List Byte → List Byte) (m : DigestMethod) (size : Int) :
    getDigest H m none = .crash ∧ getDigestSized H m none size = .returned none 0 := ⟨rfl, rfl⟩

/-- A negative size is taken as a huge one. -/
theorem C113_negative_size (H : DigestMethod → List Byte → List Byte) (content : List Byte) (size : Int) (h : size < 0) (h2 : -2147483648 ≤ size)
    (hc : content.length < 18446744071562067968) : getDigestSized H .sha1 (some content) size = .crash := by
  have e : content.length < u64 size := by unfold u64; omega
  simp only [getDigestSized]
  rw [if_pos e]

theorem C113_statement_false : ¬ C113_statement := by
  intro h
  have := h.1 (fun _ _ => []) .sha1 none (by simp) (by simp)
  simp [getDigest] at this

/-! The digest of tls/vortex_tls.c:2530. -/
example : fingerprintText [0x57, 0x16, 0x98, 0x1B] = lit "57:16:98:1B" := by decide +kernel

example : getDigest (fun _ s => s.reverse) .md5 (some (lit "az")) = .returned (some (lit "7A:61")) 0 := by decide +kernel

example : getPeerDigest (fun _ s => some s) .sha1 true (some [1, 255]) = .returned (some (lit "01:FF")) 1 ∧
    getFileDigest (fun _ s => some s) .sha1 (some [1, 255]) = .returned (some (lit "01:FF")) 0 := by decide +kernel

end Verif.Props
