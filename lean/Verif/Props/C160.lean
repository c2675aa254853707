import Verif.Spec.SaslNames
/-!
# C160 Names of SASL mechanisms in the bindings
-/
namespace Verif.Props
open Verif.Model Verif.Spec

theorem aux_sn_same : ∀ a b : List Char, spnSame a b = true ↔ b.map Char.toLower = a.map Char.toLower := by
  intro a
  induction a with
  | nil => intro b; cases b <;> simp [spnSame]
  | cons x a ih =>
    intro b
    cases b with
    | nil => simp [spnSame]
    | cons y b =>
      simp only [spnSame, Bool.and_eq_true, beq_iff_eq, ih, List.map_cons, List.cons.injEq]
      constructor
      · rintro ⟨h1, h2⟩; exact ⟨h1.symm, h2⟩
      · rintro ⟨h1, h2⟩; exact ⟨h1.symm, h2⟩

theorem aux_sn_short (m : SpnMech) : (spnShort m).map Char.toLower = (SpnName m).toList := by cases m <;> decide +kernel

theorem aux_sn_named (m : SpnMech) (p : List Char) : spnSame (spnShort m) p = true ↔ SpnNamed m p := by
  rw [aux_sn_same, aux_sn_short]; rfl

theorem aux_sn_uri (m : SpnMech) : spnProfile m = (SpnUri m).toList := by cases m <;> decide +kernel

theorem aux_sn_base : spnBase = "http://iana.org/beep/SASL".toList := by decide +kernel

theorem aux_sn_full (p : List Char) : spnBase.isPrefixOf p = true ↔ SpnFull p := by
  rw [List.isPrefixOf_iff_prefix, aux_sn_base]
  constructor
  · rintro ⟨x, hx⟩; exact ⟨x, hx.symm⟩
  · rintro ⟨x, hx⟩; exact ⟨x, hx.symm⟩

theorem aux_sn_one (m k : SpnMech) (p : List Char) (h : SpnNamed m p) (h' : SpnNamed k p) : m = k := by
  have e : (SpnName m).toList = (SpnName k).toList := h.symm.trans h'
  revert e
  cases m <;> cases k <;> decide +kernel

theorem aux_sn_notFull (m : SpnMech) (p : List Char) (h : SpnNamed m p) : ¬ SpnFull p := by
  rintro ⟨x, rfl⟩
  have e : ("http://iana.org/beep/SASL".toList ++ x).length = (SpnName m).toList.length := by
    have := congrArg List.length h
    rwa [List.length_map] at this
  rw [List.length_append] at e
  have l : ("http://iana.org/beep/SASL".toList).length = 25 := by decide +kernel
  have s : (SpnName m).toList.length ≤ 11 := by cases m <;> decide +kernel
  omega

theorem aux_sn_no (m k : SpnMech) (p : List Char) (h : SpnNamed m p) (hk : k ≠ m) : spnSame (spnShort k) p = false := by
  cases hs : spnSame (spnShort k) p
  · rfl
  · exact absurd (aux_sn_one k m p ((aux_sn_named k p).1 hs) h) hk

/-- **C160, profiles written in full** stay as they are. -/
theorem C160_full (p : List Char) (h : SpnFull p) : spnNormalize p = some p := by
  unfold spnNormalize
  rw [if_pos ((aux_sn_full p).2 h)]

/-- **C160, names.** A name, in any mix of cases, stands for the profile of its mechanism. -/
theorem C160_named (m : SpnMech) (p : List Char) (h : SpnNamed m p) : spnNormalize p = some (SpnUri m).toList := by
  have hf : ¬ (spnBase.isPrefixOf p = true) := fun e => aux_sn_notFull m p h ((aux_sn_full p).1 e)
  have hm := (aux_sn_named m p).2 h
  have hk : spnSame (spnShort .kerberosV4) ['k', 'e', 'r', 'b', 'e', 'r', 'o', 's', '_', 'v', '4'] = true := by decide +kernel
  have no := fun k hk => aux_sn_no m k p h hk
  rw [← aux_sn_uri]
  unfold spnNormalize
  rw [if_neg hf]
  by_cases h1 : m = .plain
  · subst h1; rw [if_pos hm]
  rw [if_neg (by rw [no .plain (Ne.symm h1)]; decide)]
  by_cases h2 : m = .anonymous
  · subst h2; rw [if_pos hm]
  rw [if_neg (by rw [no .anonymous (Ne.symm h2)]; decide)]
  by_cases h3 : m = .external
  · subst h3; rw [if_pos hm]
  rw [if_neg (by rw [no .external (Ne.symm h3)]; decide)]
  by_cases h4 : m = .cramMd5
  · subst h4; rw [if_pos hm]
  rw [if_neg (by rw [no .cramMd5 (Ne.symm h4)]; decide)]
  by_cases h5 : m = .digestMd5
  · subst h5; rw [if_pos hm]
  rw [if_neg (by rw [no .digestMd5 (Ne.symm h5)]; decide)]
  by_cases h6 : m = .gssapi
  · subst h6; rw [if_pos hm]
  rw [if_neg (by rw [no .gssapi (Ne.symm h6)]; decide), if_pos hk]
  cases m <;> first | rfl | contradiction

example : SpnNamed .digestMd5 "Digest-md5".toList ∧ SpnFull "http://iana.org/beep/SASL/OTP".toList :=
  ⟨by unfold SpnNamed; decide +kernel, "/OTP".toList, by decide +kernel⟩

/-- **C160 is violated**: every other text stands for KERBEROS_V4. -/
theorem C160_unknown (p : List Char) (hf : ¬ SpnFull p) (hn : ∀ m, ¬ SpnNamed m p) :
    spnNormalize p = some "http://iana.org/beep/SASL/KERBEROS_V4".toList := by
  have hk : spnSame (spnShort .kerberosV4) ['k', 'e', 'r', 'b', 'e', 'r', 'o', 's', '_', 'v', '4'] = true := by decide +kernel
  have no : ∀ m, ¬ (spnSame (spnShort m) p = true) := fun m e => hn m ((aux_sn_named m p).1 e)
  unfold spnNormalize
  rw [if_neg (fun e => hf ((aux_sn_full p).1 e)), if_neg (no _), if_neg (no _), if_neg (no _), if_neg (no _), if_neg (no _), if_neg (no _),
    if_pos hk, aux_sn_uri]
  rfl

/-- … so no text at all is refused. -/
theorem C160_never (p : List Char) : spnNormalize p ≠ none := by
  by_cases hf : SpnFull p
  · rw [C160_full p hf]; simp
  · by_cases hn : ∃ m, SpnNamed m p
    · obtain ⟨m, hm⟩ := hn
      rw [C160_named m p hm]; simp
    · rw [C160_unknown p hf (fun m hm => hn ⟨m, hm⟩)]; simp

example : (∀ m, ¬ SpnNamed m "plan".toList) ∧ spnNormalize "plan".toList = some "http://iana.org/beep/SASL/KERBEROS_V4".toList := by
  refine ⟨?_, by decide +kernel⟩
  intro m
  unfold SpnNamed
  cases m <;> decide +kernel

/-- C160 does not hold as stated. -/
theorem C160_statement_false : ¬ C160_statement := by
  intro h
  refine C160_never "plan".toList ((h "plan".toList).2.2 ?_ ?_)
  · rintro ⟨x, hx⟩
    have := congrArg List.length hx
    rw [List.length_append] at this
    have l : ("http://iana.org/beep/SASL".toList).length = 25 := by decide +kernel
    have s : ("plan".toList).length = 4 := by decide +kernel
    omega
  · intro m
    unfold SpnNamed
    cases m <;> decide +kernel

end Verif.Props
