import Verif.Spec.GenDispatch
/-!
# C137 — A call made with the generated client reaches the service it was made for
-/
namespace Verif.Props
open Verif.Model Verif.Spec

/-! ## Types -/

theorem aux_gd_server_sound (i : GdInterface) (t : List Byte) (x : XsType) (h : gdServer i t = some x) : GdStands i t x := by
  unfold gdServer at h
  repeat' split at h
  all_goals first
    | (injection h with h; subst h; subst_vars; constructor; done)
    | (injection h with h; subst h; constructor; assumption)
    | contradiction

theorem aux_gd_server (i : GdInterface) (ht : GdTidy i) (t : List Byte) (x : XsType) : gdServer i t = some x ↔ GdStands i t x := by
  refine ⟨aux_gd_server_sound i t x, fun h => ?_⟩
  obtain ⟨h1, h2⟩ := ht
  cases h with
  | int => simp [gdServer]
  | bool => simp [gdServer]; decide
  | string => simp [gdServer]; decide
  | double => simp [gdServer]; decide
  | base64 => simp [gdServer]; decide
  | array h => obtain ⟨a, b, c, d, e⟩ := h1 t (Or.inl h); simp [gdServer, a, b, c, d, e, h]
  | struct h =>
    obtain ⟨a, b, c, d, e⟩ := h1 t (Or.inr h)
    have : t ∉ i.arrays := fun h3 => h2 t h3 h
    simp [gdServer, a, b, c, d, e, h, this]

theorem aux_gd_client (i : GdInterface) (ht : GdTidy i) (t : List Byte) (hb : t ≠ lit "base64") (x : XsType) (h : GdStands i t x) : gdClient i t = some x := by
  obtain ⟨h1, h2⟩ := ht
  have ns : ∀ u : List Byte, (u = lit "int" ∨ u = lit "bool" ∨ u = lit "string" ∨ u = lit "double" ∨ u = lit "base64") → u ∉ i.arrays ∧ u ∉ i.structs := by
    intro u hu
    refine ⟨fun h => ?_, fun h => ?_⟩
    · obtain ⟨a, b, c, d, e⟩ := h1 u (Or.inl h); rcases hu with hu | hu | hu | hu | hu <;> contradiction
    · obtain ⟨a, b, c, d, e⟩ := h1 u (Or.inr h); rcases hu with hu | hu | hu | hu | hu <;> contradiction
  cases h with
  | int => have := ns (lit "int") (by simp); simp [gdClient, this]; decide
  | bool => have := ns (lit "bool") (by simp); simp [gdClient, this]; decide
  | string => have := ns (lit "string") (by simp); simp [gdClient, this]
  | double => have := ns (lit "double") (by simp); simp [gdClient, this]; decide
  | base64 => exact absurd rfl hb
  | array h => have : t ∉ i.structs := h2 t h; simp [gdClient, h, this]
  | struct h => simp [gdClient, h]

theorem aux_gd_client_sound (i : GdInterface) (t : List Byte) (x : XsType) (h : gdClient i t = some x) : GdStands i t x := by
  unfold gdClient at h
  repeat' split at h
  all_goals first
    | (injection h with h; subst h; subst_vars; constructor; done)
    | (injection h with h; subst h; constructor; assumption)
    | contradiction

/-! ## The test of a service -/

theorem aux_gd_types_sound (i : GdInterface) (c : XsCall) (ts : List (List Byte)) :
    ∀ (pre ps : List (Option (XsType × Int))), c.params = pre ++ ps → ps.length = ts.length → (∀ t ∈ ts, ∃ x, GdStands i t x) →
      (∀ t ∈ ts, ∀ x, GdStands i t x → gdServer i t ≠ none) → c.typesFrom pre.length (ts.filterMap (gdServer i)) = true → GdFits i ts ps := by
  induction ts with
  | nil => intro pre ps _ hl _ _ _; cases ps with
    | nil => exact .nil
    | cons => simp at hl
  | cons t ts ih =>
    intro pre ps hc hl hk hn h
    cases ps with
    | nil => simp at hl
    | cons p ps =>
      obtain ⟨x, hx⟩ := hk t (by simp)
      have hs := hn t (by simp) x hx
      cases hy : gdServer i t with
      | none => exact absurd hy hs
      | some y =>
        rw [List.filterMap_cons, hy] at h
        simp only [XsCall.typesFrom] at h
        have hp : c.params[pre.length]? = some p := by simp [hc]
        rw [hp] at h
        cases p with
        | none => simp at h
        | some v =>
          obtain ⟨z, n⟩ := v
          simp only [Option.getD_some] at h
          by_cases hz : z = y
          · subst hz
            simp only [ne_eq, not_true_eq_false, if_false] at h
            refine .cons (aux_gd_server_sound i t z hy) (ih (pre ++ [some (z, n)]) ps (by simp [hc]) (by simpa using hl) (fun u hu => hk u (by simp [hu]))
              (fun u hu => hn u (by simp [hu])) (by simpa using h))
          · simp [hz] at h

theorem aux_gd_types_complete (i : GdInterface) (ht : GdTidy i) (c : XsCall) (ts : List (List Byte)) :
    ∀ (pre ps : List (Option (XsType × Int))), c.params = pre ++ ps → GdFits i ts ps → c.typesFrom pre.length (ts.filterMap (gdServer i)) = true := by
  induction ts with
  | nil => intro pre ps _ _; rfl
  | cons t ts ih =>
    intro pre ps hc h
    cases h with
    | @cons _ x v _ vs hx hr =>
      rw [List.filterMap_cons, (aux_gd_server i ht t x).2 hx]
      simp only [XsCall.typesFrom]
      have hp : c.params[pre.length]? = some (some (x, v)) := by simp [hc]
      rw [hp]
      simp only [Option.getD_some, ne_eq, not_true_eq_false, if_false]
      have := ih (pre ++ [some (x, v)]) vs (by simp [hc]) hr
      simpa using this

theorem aux_gd_fits_length (i : GdInterface) (ts : List (List Byte)) (ps : List (Option (XsType × Int))) (h : GdFits i ts ps) : ps.length = ts.length := by
  induction h with
  | nil => rfl
  | cons _ _ ih => simp [ih]

theorem aux_gd_named (s : GdService) (n : List Byte) : GdNamed s n ↔ n = gdMethod s := by
  unfold GdNamed gdMethod
  cases s.method with
  | none => simp; exact eq_comm
  | some m => simp; exact eq_comm

theorem aux_gd_test (i : GdInterface) (ht : GdTidy i) (s : GdService) (hk : ∀ t ∈ s.types, ∃ x, GdStands i t x) (c : XsCall) : gdTest i s c = true ↔ GdAsks i c s := by
  unfold gdTest XsCall.is GdAsks
  rw [aux_gd_named]
  by_cases h1 : c.name = gdMethod s
  · by_cases h2 : (s.types.length : Int) = c.params.length
    · have h3 : ¬ ((s.types.length : Int) ≠ -1 ∧ (s.types.length : Int) ≠ c.params.length) := fun h => h.2 h2
      have h4 : c.params.length = s.types.length := by omega
      simp only [h1, ne_eq, not_true_eq_false, decide_false, Bool.false_eq_true, if_false, true_and]
      rw [if_neg h3]
      constructor
      · intro h
        exact aux_gd_types_sound i c s.types [] c.params (by simp) h4 hk (fun t _ x hx => by rw [(aux_gd_server i ht t x).2 hx]; simp) (by simpa using h)
      · intro h
        have := aux_gd_types_complete i ht c s.types [] c.params (by simp) h
        simpa using this
    · have h3 : (s.types.length : Int) ≠ -1 ∧ (s.types.length : Int) ≠ c.params.length := ⟨by omega, h2⟩
      simp only [h1, ne_eq, not_true_eq_false, decide_false, Bool.false_eq_true, if_false, true_and]
      rw [if_pos h3]
      simp only [Bool.false_eq_true, false_iff]
      intro h
      have := aux_gd_fits_length i _ _ h
      omega
  · simp [h1]

/-! ## The search -/

theorem aux_gd_first_some (i : GdInterface) (sel : GdService → Bool) (c : XsCall) (l : List GdService) :
    ∀ k n, gdFirst i sel c k l = some n → k ≤ n ∧ ∃ s, l[n - k]? = some s ∧ sel s = true ∧ gdTest i s c = true := by
  induction l with
  | nil => intro k n h; simp [gdFirst] at h
  | cons s r ih =>
    intro k n h
    rw [gdFirst] at h
    split at h
    · rename_i hs
      injection h with h
      subst h
      refine ⟨Nat.le_refl _, s, by simp, ?_⟩
      simpa using hs
    · obtain ⟨h1, t, h2, h3⟩ := ih _ _ h
      refine ⟨by omega, t, ?_, h3⟩
      rw [show n - k = (n - (k + 1)) + 1 by omega]
      simpa using h2

theorem aux_gd_first_none (i : GdInterface) (sel : GdService → Bool) (c : XsCall) (l : List GdService) :
    ∀ k, gdFirst i sel c k l = none ↔ ∀ s ∈ l, sel s = true → gdTest i s c = false := by
  induction l with
  | nil => intro k; simp [gdFirst]
  | cons s r ih =>
    intro k
    rw [gdFirst]
    by_cases h : sel s = true <;> by_cases h2 : gdTest i s c = true <;> simp [h, h2, ih]

theorem aux_gd_dispatch (i : GdInterface) (on : Option (List Byte)) (c : XsCall) (all order : List (List Byte)) :
    gdDispatch i on c all order =
      if (∃ r, on = some r ∧ r ∈ order) then gdFirst i (fun s => decide (s.resource = on)) c 0 i.services
      else gdFirst i (gdLeft all) c 0 i.services := by
  induction order with
  | nil => simp [gdDispatch]
  | cons r order ih =>
    rw [gdDispatch]
    by_cases h : on = some r
    · subst h; simp
    · rw [if_neg h, ih]
      have : (∃ r', on = some r' ∧ r' ∈ r :: order) ↔ (∃ r', on = some r' ∧ r' ∈ order) := by
        constructor
        · rintro ⟨x, hx, hm⟩
          refine ⟨x, hx, ?_⟩
          rcases List.mem_cons.1 hm with hm | hm
          · subst hm; exact absurd hx h
          · exact hm
        · rintro ⟨x, hx, hm⟩; exact ⟨x, hx, by simp [hm]⟩
      simp only [this]

theorem aux_gd_first_congr (i : GdInterface) (f g : GdService → Bool) (c : XsCall) (l : List GdService) (h : ∀ s ∈ l, f s = g s) :
    ∀ k, gdFirst i f c k l = gdFirst i g c k l := by
  induction l with
  | nil => intro k; rfl
  | cons s r ih => intro k; rw [gdFirst, gdFirst, h s (by simp), ih (fun t ht => h t (by simp [ht]))]

/-- The search runs over the services of the section. -/
theorem aux_gd_section (i : GdInterface) (order : List (List Byte)) (ho : GdOrder i order) (on : Option (List Byte)) (c : XsCall) :
    ∃ sel : GdService → Bool, gdDispatch i on c order order = gdFirst i sel c 0 i.services ∧ ∀ s ∈ i.services, (sel s = true ↔ GdSection i on s) := by
  rw [aux_gd_dispatch]
  by_cases h : ∃ r, on = some r ∧ r ∈ order
  · rw [if_pos h]
    refine ⟨_, rfl, fun s hs => ?_⟩
    obtain ⟨r, h1, h2⟩ := h
    obtain ⟨t, ht, hr⟩ := (ho r).1 h2
    subst h1
    simp only [decide_eq_true_eq, GdSection]
    constructor
    · intro h; exact Or.inl ⟨h, by simp⟩
    · rintro (h | h)
      · exact h.1
      · exact absurd rfl (h.2 t ht r hr)
  · rw [if_neg h]
    refine ⟨_, rfl, fun s hs => ?_⟩
    have hn : ∀ t ∈ i.services, ∀ r, t.resource = some r → on ≠ some r := by
      intro t ht r hr hon
      exact h ⟨r, hon, (ho r).2 ⟨t, ht, hr⟩⟩
    unfold GdSection gdLeft
    cases hres : s.resource with
    | none => simp; exact Or.inr hn
    | some x =>
      have : x ∈ order := (ho x).2 ⟨s, hs, hres⟩
      simp [this]
      intro hx; exact absurd hx.symm (hn s hs x hres)

theorem aux_gd_order (i : GdInterface) : GdOrder i (gdResources i.services) := by
  intro r
  induction i.services with
  | nil => simp [gdResources]
  | cons s l ih =>
    cases hs : s.resource with
    | none => simp [gdResources, hs, ih]
    | some x =>
      by_cases hx : x ∈ gdResources l
      · simp only [gdResources, hs, hx, if_true, ih, List.mem_cons, exists_eq_or_imp, Option.some.injEq]
        constructor
        · intro h; exact Or.inr h
        · rintro (h | h)
          · subst h; exact ih.1 hx
          · exact h
      · simp only [gdResources, hs, hx, if_false, ih, List.mem_cons, exists_eq_or_imp, Option.some.injEq]
        constructor <;> rintro (h | h) <;> first | exact Or.inl h.symm | exact Or.inr h

/-! ## The headers -/

theorem aux_gd_octet : ∀ b : Byte,
    (if gdAlnum (gdCase true b) then gdCase true b else 95) =
      if 97 ≤ b.toNat ∧ b.toNat ≤ 122 then b - 32 else if 65 ≤ b.toNat ∧ b.toNat ≤ 90 ∨ 48 ≤ b.toNat ∧ b.toNat ≤ 57 then b else (95 : Byte) := by
  have h : ∀ n : Fin 256, (fun b : Byte => (if gdAlnum (gdCase true b) then gdCase true b else 95) =
      if 97 ≤ b.toNat ∧ b.toNat ≤ 122 then b - 32 else if 65 ≤ b.toNat ∧ b.toNat ≤ 90 ∨ 48 ≤ b.toNat ∧ b.toNat ≤ 57 then b else (95 : Byte)) (UInt8.ofNat n.val) := by
    decide +kernel
  intro b
  have := h ⟨b.toNat, b.toNat_lt⟩
  simpa using this

theorem aux_gd_plain (n : List Byte) : gdWord true n = gdPlain n := by
  unfold gdWord gdPlain
  exact List.map_congr_left fun b _ => aux_gd_octet b

theorem aux_gd_guard (c : List Byte) (s t : GdService) : gdGuard c s = gdGuard c t ↔ gdPlain s.name = gdPlain t.name := by
  unfold gdGuard
  simp [aux_gd_plain]

theorem aux_gd_included (comp : List Byte) (l : List GdService) :
    ∀ (d : List (List Byte)) (k n : Nat), n ∈ gdIncluded comp d k l ↔
      k ≤ n ∧ ∃ s, l[n - k]? = some s ∧ gdGuard comp s ∉ d ∧ ∀ m < n - k, ∀ t, l[m]? = some t → gdGuard comp t ≠ gdGuard comp s := by
  induction l with
  | nil => intro d k n; simp [gdIncluded]
  | cons s r ih =>
    intro d k n
    rw [gdIncluded]
    split
    · rename_i hd
      rw [ih]
      constructor
      · rintro ⟨h1, t, h2, h3, h4⟩
        refine ⟨by omega, t, ?_, h3, ?_⟩
        · rw [show n - k = (n - (k + 1)) + 1 by omega]; simpa using h2
        · intro m hm u hu
          cases m with
          | zero => simp at hu; subst hu; intro he; rw [he] at hd; exact h3 hd
          | succ m => exact h4 m (by omega) u (by simpa using hu)
      · rintro ⟨h1, t, h2, h3, h4⟩
        have hne : n ≠ k := by
          intro he; subst he; simp at h2; subst h2; exact h3 hd
        refine ⟨by omega, t, ?_, h3, ?_⟩
        · rw [show n - k = (n - (k + 1)) + 1 by omega] at h2; simpa using h2
        · intro m hm u hu; exact h4 (m + 1) (by omega) u (by simpa using hu)
    · rename_i hd
      rw [List.mem_cons, ih]
      constructor
      · rintro (h | ⟨h1, t, h2, h3, h4⟩)
        · subst h; exact ⟨Nat.le_refl _, s, by simp, hd, by simp⟩
        · refine ⟨by omega, t, ?_, fun h => h3 (by simp [h]), ?_⟩
          · rw [show n - k = (n - (k + 1)) + 1 by omega]; simpa using h2
          · intro m hm u hu
            cases m with
            | zero => simp at hu; subst hu; intro he; exact h3 (by simp [he])
            | succ m => exact h4 m (by omega) u (by simpa using hu)
      · rintro ⟨h1, t, h2, h3, h4⟩
        by_cases hne : n = k
        · exact Or.inl hne
        · refine Or.inr ⟨by omega, t, ?_, ?_, ?_⟩
          · rw [show n - k = (n - (k + 1)) + 1 by omega] at h2; simpa using h2
          · intro h
            rcases List.mem_cons.1 h with h | h
            · exact h4 0 (by omega) s (by simp) h.symm
            · exact h3 h
          · intro m hm u hu; exact h4 (m + 1) (by omega) u (by simpa using hu)

/-! ## The calls of the client -/

theorem aux_gd_values (i : GdInterface) (ht : GdTidy i) (ts : List (List Byte)) :
    ∀ vs : List Int, vs.length = ts.length → (∀ t ∈ ts, t ≠ lit "base64" ∧ ∃ x, GdStands i t x) →
      ∃ ps, gdValues i ts vs = some ps ∧ GdFits i ts ps ∧ ps.map (·.map (·.2)) = vs.map some := by
  induction ts with
  | nil => intro vs hl _; cases vs with
    | nil => exact ⟨[], rfl, .nil, rfl⟩
    | cons => simp at hl
  | cons t ts ih =>
    intro vs hl hk
    cases vs with
    | nil => simp at hl
    | cons v vs =>
      obtain ⟨hb, x, hx⟩ := hk t (by simp)
      obtain ⟨ps, h1, h2, h3⟩ := ih vs (by simpa using hl) (fun u hu => hk u (by simp [hu]))
      refine ⟨some (x, v) :: ps, ?_, .cons hx h2, by simp [h3]⟩
      simp [gdValues, h1, aux_gd_client i ht t hb x hx]

/-! ## Theorems -/

/-- What the client function of a service sends: a call of this service with the arguments in order, whenever no parameter has type base64. Missing: base64
(`C137_base64`). -/
theorem C137_client_partial (i : GdInterface) (ht : GdTidy i) (hk : GdKnown i) (s : GdService) (hs : s ∈ i.services) (hb : lit "base64" ∉ s.types) (values : List Int)
    (hv : values.length = s.types.length) : ∃ c, gdCall i s values = some c ∧ GdAsks i c s ∧ c.params.map (·.map (·.2)) = values.map some := by
  obtain ⟨ps, h1, h2, h3⟩ := aux_gd_values i ht s.types values hv (fun t h => ⟨fun he => hb (he ▸ h), hk s hs t h⟩)
  exact ⟨⟨gdMethod s, ps⟩, by simp [gdCall, h1], ⟨(aux_gd_named s _).2 rfl, h2⟩, h3⟩

/-- A service whose function is called was asked for: the call has its name and values of its types, and the service is of the resource of the channel. Missing: services of
no resource where the resource of the channel has services (`C137_unreachable`). -/
theorem C137_asked_partial (i : GdInterface) (ht : GdTidy i) (hk : GdKnown i) (order : List (List Byte)) (ho : GdOrder i order) (on : Option (List Byte)) (c : XsCall) (n : Nat)
    (h : gdServe i order on c = .runs n ∨ gdServe i order on c = .undeclared n) :
    ∃ s, i.services[n]? = some s ∧ GdAsks i c s ∧ GdOffered s on ∧ GdSection i on s ∧ ∀ m < n, ∀ t, i.services[m]? = some t → GdSection i on t → ¬ GdAsks i c t := by
  have hd : gdDispatch i on c order order = some n := by
    unfold gdServe at h
    revert h
    cases gdDispatch i on c order order with
    | none => simp
    | some m => simp only; split <;> simp
  obtain ⟨sel, h1, h2⟩ := aux_gd_section i order ho on c
  rw [h1] at hd
  obtain ⟨_, s, h3, h4, h5⟩ := aux_gd_first_some i sel c i.services 0 n hd
  have hm : s ∈ i.services := List.mem_of_getElem? h3
  have hsec := (h2 s hm).1 h4
  refine ⟨s, by simpa using h3, (aux_gd_test i ht s (hk s hm) c).1 h5, ?_, hsec, ?_⟩
  · rcases hsec with hsec | hsec
    · exact Or.inr hsec.1
    · exact Or.inl hsec.1
  · intro m hmn t htm hst hat
    have hmem : t ∈ i.services := List.mem_of_getElem? htm
    have ha := (aux_gd_test i ht t (hk t hmem) c).2 hat
    have hsel := (h2 t hmem).2 hst
    clear h1 h3 h4 h5 hsec
    have key : ∀ (l : List GdService) (k n' m' : Nat), gdFirst i sel c k l = some n' → l[m']? = some t → n' ≤ k + m' := by
      intro l
      induction l with
      | nil => intro k n' m' h; simp [gdFirst] at h
      | cons u r ih =>
        intro k n' m' h hu
        rw [gdFirst] at h
        split at h
        · injection h with h; omega
        · rename_i hno
          cases m' with
          | zero => simp at hu; subst hu; simp [hsel, ha] at hno
          | succ m' =>
            have := ih (k + 1) n' m' h (by simpa using hu)
            omega
    have := key i.services 0 n m hd htm
    omega

/-- A call is refused exactly if no service of the resource of the channel was asked for. -/
theorem C137_refused_partial (i : GdInterface) (ht : GdTidy i) (hk : GdKnown i) (order : List (List Byte)) (ho : GdOrder i order) (on : Option (List Byte)) (c : XsCall) :
    gdServe i order on c = .refused ↔ ∀ s ∈ i.services, GdSection i on s → ¬ GdAsks i c s := by
  obtain ⟨sel, h1, h2⟩ := aux_gd_section i order ho on c
  have : gdServe i order on c = .refused ↔ gdDispatch i on c order order = none := by
    unfold gdServe
    cases gdDispatch i on c order order with
    | none => simp
    | some m => simp only; split <;> simp
  rw [this, h1, aux_gd_first_none]
  constructor
  · intro h s hs hsec ha
    have := h s hs ((h2 s hs).2 hsec)
    rw [(aux_gd_test i ht s (hk s hs) c).2 ha] at this
    simp at this
  · intro h s hs hsel
    have := h s hs ((h2 s hs).1 hsel)
    rw [← aux_gd_test i ht s (hk s hs) c] at this
    simpa using this

/-- The order in which the compiler writes the resources makes no difference. -/
theorem C137_order_partial (i : GdInterface) (a b : List (List Byte)) (ha : GdOrder i a) (hb : GdOrder i b) (on : Option (List Byte)) (c : XsCall) :
    gdServe i a on c = gdServe i b on c := by
  obtain ⟨f, f1, f2⟩ := aux_gd_section i a ha on c
  obtain ⟨g, g1, g2⟩ := aux_gd_section i b hb on c
  unfold gdServe
  rw [f1, g1, aux_gd_first_congr i f g c i.services]
  intro s hs
  have := (f2 s hs).trans (g2 s hs).symm
  exact Bool.eq_iff_iff.2 this

/-- From client to service: the call made for a service runs it, on channels where it answers, if the services of a resource are told apart by names and types of XML-RPC
and no service before it has the same name up to case and punctuation. Missing: base64, two structs or arrays (`C137_twoStructs`), overloads (`C137_overload_partial`), services of no resource
(`C137_unreachable`). -/
theorem C137_reaches_partial (i : GdInterface) (ht : GdTidy i) (hk : GdKnown i) (hc : GdClear i) (order : List (List Byte)) (ho : GdOrder i order) (n : Nat) (s : GdService)
    (hs : i.services[n]? = some s) (hb : lit "base64" ∉ s.types) (hn : ∀ m < n, ∀ t, i.services[m]? = some t → gdPlain t.name ≠ gdPlain s.name)
    (on : Option (List Byte)) (hsec : GdSection i on s) (values : List Int) (hv : values.length = s.types.length) :
    ∃ c, gdCall i s values = some c ∧ gdServe i order on c = .runs n := by
  have hm : s ∈ i.services := List.mem_of_getElem? hs
  obtain ⟨c, h1, h2, _⟩ := C137_client_partial i ht hk s hm hb values hv
  refine ⟨c, h1, ?_⟩
  have hne : gdServe i order on c ≠ .refused := fun h => (C137_refused_partial i ht hk order ho on c).1 h s hm hsec h2
  have same : ∀ k, (gdServe i order on c = .runs k ∨ gdServe i order on c = .undeclared k) → k = n := by
    intro k hk'
    obtain ⟨t, t1, t2, t3, t4, _⟩ := C137_asked_partial i ht hk order ho on c k hk'
    refine hc k n t s c t1 hs ?_ t2 h2
    rcases hsec with a | a <;> rcases t4 with b | b
    · rw [a.1, b.1]
    · exfalso
      cases on with
      | none => exact a.2 rfl
      | some r => exact b.2 s hm r a.1 rfl
    · exfalso
      cases on with
      | none => exact b.2 rfl
      | some r => exact a.2 t (List.mem_of_getElem? t1) r b.1 rfl
    · rw [a.1, b.1]
  have hinc : n ∈ gdIncluded i.component [] 0 i.services := by
    rw [aux_gd_included]
    refine ⟨Nat.zero_le _, s, by simpa using hs, by simp, fun m hmn t htm => ?_⟩
    rw [Ne, aux_gd_guard]
    exact hn m (by simpa using hmn) t htm
  cases he : gdServe i order on c with
  | refused => exact absurd he hne
  | runs k => rw [same k (Or.inl he)]
  | undeclared k =>
    have := same k (Or.inr he)
    subst this
    unfold gdServe at he
    split at he
    · simp at he
    · rename_i m hd
      split at he
      · simp at he
      · rename_i hno
        injection he with he
        subst he
        exact absurd hinc hno

/-- The code violates the property: of services with the same name only the first is declared where they are called, so no call runs another. -/
theorem C137_overload_partial (i : GdInterface) (m n : Nat) (hmn : m < n) (s t : GdService) (hs : i.services[m]? = some s) (ht : i.services[n]? = some t)
    (he : gdPlain s.name = gdPlain t.name) (order : List (List Byte)) (on : Option (List Byte)) (c : XsCall) : gdServe i order on c ≠ .runs n := by
  intro h
  have hno : n ∉ gdIncluded i.component [] 0 i.services := by
    rw [aux_gd_included]
    rintro ⟨_, u, h1, _, h3⟩
    simp [ht] at h1
    subst h1
    exact h3 m (by simpa using hmn) s hs ((aux_gd_guard _ _ _).2 he)
  unfold gdServe at h
  split at h
  · simp at h
  · split at h
    · rename_i hin
      injection h with h
      subst h
      exact hno hin
    · simp at h

theorem aux_gd_split (a b x y : List Byte) (ha : 95 ∉ a) (hb : 95 ∉ b) (hx : x = [] ∨ x.head? = some 95) (hy : y = [] ∨ y.head? = some 95) (h : a ++ x = b ++ y) :
    a = b ∧ x = y := by
  induction a generalizing b with
  | nil =>
    cases b with
    | nil => exact ⟨rfl, by simpa using h⟩
    | cons c b =>
      rcases hx with hx | hx
      · subst hx; simp at h
      · exfalso
        cases x with
        | nil => simp at hx
        | cons d x => simp at hx h; subst hx; exact hb (by simp [h.1])
  | cons c a ih =>
    cases b with
    | nil =>
      rcases hy with hy | hy
      · subst hy; simp at h
      · exfalso
        cases y with
        | nil => simp at hy
        | cons d y => simp at hy h; subst hy; exact ha (by simp [h.1])
    | cons d b =>
      simp only [List.cons_append, List.cons.injEq] at h
      obtain ⟨h1, h2⟩ := ih b (fun h' => ha (by simp [h'])) (fun h' => hb (by simp [h'])) h.2
      exact ⟨by rw [h.1, h1], h2⟩

/-- Small letters and digits. -/
def auxGdSmall (t : List Byte) : Prop := ∀ b ∈ t, (97 ≤ b.toNat ∧ b.toNat ≤ 122) ∨ (48 ≤ b.toNat ∧ b.toNat ≤ 57)

theorem aux_gd_small (t : List Byte) (h : auxGdSmall t) : gdWord false t = t ∧ 95 ∉ t := by
  constructor
  · unfold gdWord
    conv => rhs; rw [← List.map_id t]
    refine List.map_congr_left fun b hb => ?_
    have := h b hb
    have h1 : gdCase false b = b := by
      simp only [gdCase, Bool.false_eq_true, if_false]
      rw [if_neg (by omega)]
    rw [h1]
    have : gdAlnum b = true := by simp [gdAlnum]; omega
    simp [this]
  · intro hm
    have := h 95 hm
    simp at this

theorem aux_gd_types_head (ts : List (List Byte)) : gdTypes ts = [] ∨ (gdTypes ts).head? = some 95 := by
  cases ts with
  | nil => exact Or.inl rfl
  | cons t ts => exact Or.inr rfl

theorem aux_gd_types_inj (ts : List (List Byte)) : ∀ us, (∀ t ∈ ts, auxGdSmall t) → (∀ t ∈ us, auxGdSmall t) → gdTypes ts = gdTypes us → ts = us := by
  induction ts with
  | nil => intro us _ _ h; cases us with
    | nil => rfl
    | cons => simp [gdTypes] at h
  | cons t ts ih =>
    intro us ht hu h
    cases us with
    | nil => simp [gdTypes] at h
    | cons u us =>
      have a := aux_gd_small t (ht t (by simp))
      have b := aux_gd_small u (hu u (by simp))
      have h' : t ++ gdTypes ts = u ++ gdTypes us := by
        simp only [gdTypes, List.flatMap_cons, a.1, b.1, List.cons_append, List.cons.injEq, true_and] at h
        exact h
      obtain ⟨e1, e2⟩ := aux_gd_split t u _ _ a.2 b.2 (aux_gd_types_head ts) (aux_gd_types_head us) h'
      rw [e1, ih us (fun x hx => ht x (by simp [hx])) (fun x hx => hu x (by simp [hx])) e2]

/-- Services whose names have no `_`, with types in small letters and digits, have files of their own. Missing: other names (`C137_sameFile`). -/
theorem C137_files_partial (i : GdInterface) (hap : ∀ (a b : Nat) (s t : GdService), i.services[a]? = some s → i.services[b]? = some t → s.name = t.name → s.types = t.types → a = b)
    (hn : ∀ s ∈ i.services, 95 ∉ s.name ∧ ∀ t ∈ s.types, ∀ b ∈ t, (97 ≤ b.toNat ∧ b.toNat ≤ 122) ∨ (48 ≤ b.toNat ∧ b.toNat ≤ 57))
    (a b : Nat) (s t : GdService) (hs : i.services[a]? = some s) (ht : i.services[b]? = some t) (h : gdFile i.component s = gdFile i.component t) : a = b := by
  have ms := hn s (List.mem_of_getElem? hs)
  have mt := hn t (List.mem_of_getElem? ht)
  have h' : s.name ++ gdTypes s.types = t.name ++ gdTypes t.types := by
    simpa [gdFile] using h
  obtain ⟨e1, e2⟩ := aux_gd_split _ _ _ _ ms.1 mt.1 (aux_gd_types_head _) (aux_gd_types_head _) h'
  exact hap a b s t hs ht e1 (aux_gd_types_inj _ _ ms.2 mt.2 e2)

/-! ## Concrete interfaces -/

/-- `sum (int, int)`, `total (Item, bool)` on resource `stock`, `echo (string)` called `test.echo`, and `Sum (string)`. -/
def auxGdShop : GdInterface :=
  ⟨lit "Shop", [⟨lit "sum", none, none, [lit "int", lit "int"]⟩, ⟨lit "total", none, some (lit "stock"), [lit "Item", lit "bool"]⟩,
    ⟨lit "echo", some (lit "test.echo"), none, [lit "string"]⟩, ⟨lit "Sum", none, none, [lit "string"]⟩], [lit "List"], [lit "Item"]⟩

theorem aux_gd_tidy (i : GdInterface) (h : (∀ t ∈ i.arrays ++ i.structs, t ≠ lit "int" ∧ t ≠ lit "bool" ∧ t ≠ lit "string" ∧ t ≠ lit "double" ∧ t ≠ lit "base64"))
    (h2 : ∀ t ∈ i.arrays, t ∉ i.structs) : GdTidy i := ⟨fun t ht => h t (List.mem_append.2 ht), h2⟩

theorem aux_gd_shop_tidy : GdTidy auxGdShop := aux_gd_tidy _ (by decide) (by decide)

theorem aux_gd_known (i : GdInterface) (h : ∀ s ∈ i.services, ∀ t ∈ s.types, (gdServer i t).isSome = true) : GdKnown i := by
  intro s hs t ht
  obtain ⟨x, hx⟩ := Option.isSome_iff_exists.1 (h s hs t ht)
  exact ⟨x, aux_gd_server_sound i t x hx⟩

theorem aux_gd_shop_known : GdKnown auxGdShop := aux_gd_known _ (by decide +kernel)

example : GdTidy auxGdShop ∧ GdKnown auxGdShop ∧ GdOrder auxGdShop [lit "stock"] ∧
    (∃ c, gdCall auxGdShop ⟨lit "total", none, some (lit "stock"), [lit "Item", lit "bool"]⟩ [7, 1] = some c ∧ gdServe auxGdShop [lit "stock"] (some (lit "stock")) c = .runs 1) ∧
    (∃ c, gdCall auxGdShop ⟨lit "echo", some (lit "test.echo"), none, [lit "string"]⟩ [7] = some c ∧ gdServe auxGdShop [lit "stock"] (some (lit "/")) c = .runs 2) ∧
    (∃ c, gdCall auxGdShop ⟨lit "Sum", none, none, [lit "string"]⟩ [7] = some c ∧ gdServe auxGdShop [lit "stock"] none c = .undeclared 3) ∧
    gdServe auxGdShop [lit "stock"] none ⟨lit "sum", [some (.int, 1), some (.string, 2)]⟩ = .refused :=
  ⟨aux_gd_shop_tidy, aux_gd_shop_known, aux_gd_order auxGdShop, ⟨_, rfl, by decide +kernel⟩, ⟨_, rfl, by decide +kernel⟩, ⟨_, rfl, by decide +kernel⟩, by decide +kernel⟩

/-- `C137_reaches_partial` applies to the second service of this interface. -/
example : ∃ c, gdCall auxGdShop ⟨lit "total", none, some (lit "stock"), [lit "Item", lit "bool"]⟩ [7, 1] = some c ∧
    gdServe auxGdShop [lit "stock"] (some (lit "stock")) c = .runs 1 := by
  refine C137_reaches_partial auxGdShop aux_gd_shop_tidy aux_gd_shop_known ?_ [lit "stock"] (aux_gd_order auxGdShop) 1 _ rfl (by decide) ?_ _ (Or.inl ⟨rfl, by simp⟩) [7, 1] rfl
  · intro a b s t c hs ht _ ha hb
    have na := (aux_gd_named s c.name).1 ha.1
    have nb := (aux_gd_named t c.name).1 hb.1
    have inj : ∀ a < 4, ∀ b < 4, (auxGdShop.services[a]?).map gdMethod = (auxGdShop.services[b]?).map gdMethod → a = b := by decide +kernel
    have la : a < 4 := (List.getElem?_eq_some_iff.1 hs).1
    have lb : b < 4 := (List.getElem?_eq_some_iff.1 ht).1
    exact inj a la b lb (by rw [hs, ht]; simp [← na, ← nb])
  · intro m hm t htm
    have : m = 0 := by omega
    subst this
    have : t = ⟨lit "sum", none, none, [lit "int", lit "int"]⟩ := by simpa [auxGdShop] using htm.symm
    subst this
    decide

/-- The files of this interface's services differ although two have the same name up to case. -/
example : gdFile (lit "Shop") ⟨lit "sum", none, none, [lit "int", lit "int"]⟩ = lit "shop_sum_int_int" := by decide +kernel

/-- The code violates the property: a service with a parameter of type base64 has no client function. -/
theorem C137_base64 : ∃ (i : GdInterface) (s : GdService), GdTidy i ∧ GdKnown i ∧ i.services = [s] ∧ s.types = [lit "base64"] ∧ ∀ values, gdCall i s values = none := by
  refine ⟨⟨lit "a", [⟨lit "f", none, none, [lit "base64"]⟩], [], []⟩, _, aux_gd_tidy _ (by decide) (by decide), aux_gd_known _ (by decide +kernel), rfl, rfl, ?_⟩
  intro values
  have h : gdClient ⟨lit "a", [⟨lit "f", none, none, [lit "base64"]⟩], [], []⟩ (lit "base64") = none := by decide +kernel
  cases values with
  | nil => rfl
  | cons v vs => simp [gdCall, gdValues, h]

/-- The code violates the property: a service declared for no resource cannot be reached on a channel whose resource has a service. -/
theorem C137_unreachable : ∃ (i : GdInterface) (s t : GdService) (on : List Byte), GdTidy i ∧ GdKnown i ∧ i.services = [s, t] ∧ t.resource = none ∧ s.resource = some on ∧
    ∃ c, gdCall i t [] = some c ∧ gdServe i [on] (some on) c = .refused := by
  refine ⟨⟨lit "a", [⟨lit "f", none, some (lit "r"), []⟩, ⟨lit "g", none, none, []⟩], [], []⟩, _, _, lit "r", aux_gd_tidy _ (by decide) (by decide),
    aux_gd_known _ (by decide +kernel), rfl, rfl, rfl, _, rfl, by decide +kernel⟩

/-- The code violates the property: of two services with the same name in calls that take different structs, the first gets the calls of the second. -/
theorem C137_twoStructs : ∃ (i : GdInterface) (s t : GdService), GdTidy i ∧ GdKnown i ∧ i.services = [s, t] ∧ s.types ≠ t.types ∧
    ∃ c, gdCall i t [5] = some c ∧ gdServe i [] none c = .runs 0 := by
  refine ⟨⟨lit "a", [⟨lit "f", none, none, [lit "A"]⟩, ⟨lit "f", none, none, [lit "B"]⟩], [], [lit "A", lit "B"]⟩, _, _, aux_gd_tidy _ (by decide) (by decide),
    aux_gd_known _ (by decide +kernel), rfl, by decide, _, rfl, by decide +kernel⟩

/-- The code violates the property: overloading. The call reaches the second service, whose function has no declaration. -/
theorem C137_undeclared : ∃ (i : GdInterface) (s t : GdService), GdTidy i ∧ GdKnown i ∧ i.services = [s, t] ∧
    ∃ c, gdCall i t [5] = some c ∧ gdServe i [] none c = .undeclared 1 := by
  refine ⟨⟨lit "a", [⟨lit "f", none, none, [lit "int"]⟩, ⟨lit "f", none, none, [lit "string"]⟩], [], []⟩, _, _, aux_gd_tidy _ (by decide) (by decide),
    aux_gd_known _ (by decide +kernel), rfl, _, rfl, by decide +kernel⟩

/-- The code violates the property: `f_int ()` and `f (int)` have the same files. -/
theorem C137_sameFile : ∃ (i : GdInterface) (s t : GdService), i.services = [s, t] ∧ s.name ≠ t.name ∧ gdFile i.component s = gdFile i.component t := by
  refine ⟨⟨lit "a", [⟨lit "f_int", none, none, []⟩, ⟨lit "f", none, none, [lit "int"]⟩], [], []⟩, _, _, rfl, by decide, by decide +kernel⟩

/-- The code violates the property: the types of parameters are not checked. A word that is no type takes any value, and the one after it is asked of its value. -/
theorem C137_unknownType : ∃ (i : GdInterface) (s : GdService), i.services = [s] ∧ s.types = [lit "boolean", lit "int"] ∧
    gdServe i [] none ⟨s.name, [some (.boolean, 1), some (.int, 2)]⟩ = .refused ∧ gdServe i [] none ⟨s.name, [some (.int, 1), some (.string, 2)]⟩ = .runs 0 := by
  refine ⟨⟨lit "a", [⟨lit "f", none, none, [lit "boolean", lit "int"]⟩], [], []⟩, _, rfl, rfl, by decide +kernel, by decide +kernel⟩

theorem C137_statement_false : ¬ C137_statement := by
  intro h
  let i : GdInterface := ⟨lit "a", [⟨lit "f", none, none, [lit "base64"]⟩], [], []⟩
  have hap : GdApart i := by
    intro a b s t hs ht _ _ _ _
    have la : a < 1 := (List.getElem?_eq_some_iff.1 hs).1
    have lb : b < 1 := (List.getElem?_eq_some_iff.1 ht).1
    omega
  obtain ⟨h1, _⟩ := h i (gdResources i.services) (aux_gd_tidy _ (by decide) (by decide)) (aux_gd_known _ (by decide +kernel)) hap (aux_gd_order i)
  obtain ⟨c, hc, _⟩ := h1 0 ⟨lit "f", none, none, [lit "base64"]⟩ none [5] rfl (Or.inl rfl) rfl
  revert hc
  have : gdCall i ⟨lit "f", none, none, [lit "base64"]⟩ [5] = none := by decide +kernel
  rw [this]
  simp

end Verif.Props
