import Verif.Spec.XmlRpcStruct
/-!
# C119 — XML-RPC structs and signatures
-/
namespace Verif.Props
open Verif.Model Verif.Spec

/-- **C119**, the full statement, for a struct to which at most as many members were added as it has room for: it counts the members added, the checks tell whether the
names and types are those of the members, and every position gives its member; a parameter that is no int and no boolean is no int. -/
def C119_statement : Prop :=
  (∀ (count : Nat) (ms : List XsMember), ms.length ≤ count →
    (structOf count ms).memberCount = ms.length ∧
    (∀ names, ∃ b, (structOf count ms).checkNames names = .gives b ∧ (b = true ↔ names = ms.map XsMember.name)) ∧
    (∀ types, ∃ b, (structOf count ms).checkTypes types = .gives b ∧ (b = true ↔ AllTyped types ms)) ∧
    (∀ i : Nat, (structOf count ms).getAt i = .gives (ms[i]?.map XsMember.value))) ∧
  (∀ (c : XsCall) (i : Nat) (v : XsType × Int), c.params[i]? = some (some v) → v.1 ≠ .int → v.1 ≠ .boolean → c.asInt i = -1)

theorem aux_xs_fold : ∀ (ms : List XsMember) (s : XsStruct), s.members.length + ms.length ≤ s.count →
    ms.foldl XsStruct.add s = ⟨s.count, s.members ++ ms⟩
  | [], s, _ => by simp
  | m :: ms, s, h => by
    simp only [List.length_cons] at h
    rw [List.foldl_cons, XsStruct.add, if_pos (by omega), aux_xs_fold ms _ (by simp; omega)]
    simp

theorem aux_xs_of (count : Nat) (ms : List XsMember) (h : ms.length ≤ count) : structOf count ms = ⟨count, ms⟩ := by
  rw [structOf, aux_xs_fold ms _ (by simpa [XsStruct.new] using h)]; simp [XsStruct.new]

/-- Members that fit are all there, in order; others are left out, and those before stay. -/
theorem C119_added (count : Nat) (ms : List XsMember) : (structOf count ms).members = ms.take count ∧ (structOf count ms).count = count := by
  have key : ∀ (ms : List XsMember) (s : XsStruct), s.members.length ≤ s.count →
      (ms.foldl XsStruct.add s).members = s.members ++ ms.take (s.count - s.members.length) ∧ (ms.foldl XsStruct.add s).count = s.count := by
    intro ms
    induction ms with
    | nil => intro s h; simp
    | cons m ms ih =>
      intro s h
      rw [List.foldl_cons, XsStruct.add]
      by_cases hl : s.members.length < s.count
      · rw [if_pos hl]
        have := ih { s with members := s.members ++ [m] } (by simp; omega)
        refine ⟨?_, this.2⟩
        rw [this.1]
        simp only [List.length_append, List.length_cons, List.length_nil, List.append_assoc, List.cons_append, List.nil_append]
        rw [show s.count - s.members.length = (s.count - (s.members.length + (0 + 1))) + 1 by omega, List.take_succ_cons]
      · rw [if_neg hl]
        have := ih s h
        rw [this.1]
        have e : s.count - s.members.length = 0 := by omega
        simp [e, this.2]
  have := key ms (XsStruct.new count) (by simp [XsStruct.new])
  simpa [structOf, XsStruct.new] using this

theorem aux_xs_names (s : XsStruct) : ∀ (names : List (List Byte)) (i : Nat), i + names.length = s.members.length →
    s.namesFrom i names = .gives (decide (names = (s.members.drop i).map XsMember.name))
  | [], i, h => by
    have : s.members.drop i = [] := List.drop_of_length_le (by simp at h; omega)
    simp [XsStruct.namesFrom, this]
  | n :: r, i, h => by
    simp only [List.length_cons] at h
    have hi : i < s.members.length := by omega
    have ih := aux_xs_names s r (i + 1) (by omega)
    rw [List.drop_eq_getElem_cons hi]
    simp only [XsStruct.namesFrom, List.getElem?_eq_getElem hi, ih, List.map_cons, List.cons.injEq]
    by_cases e : s.members[i].name = n
    · simp [e]
    · simp [e, Ne.symm e]

/-- For a struct with as many members as it has room for, `vortex_xml_rpc_struct_check_member_names` says exactly whether the names are those of the members, in
order. -/
theorem C119_names_partial (ms : List XsMember) (names : List (List Byte)) :
    (structOf ms.length ms).checkNames names = .gives (decide (names = ms.map XsMember.name)) := by
  rw [aux_xs_of _ _ (Nat.le_refl _), XsStruct.checkNames]
  by_cases h : ms.length = names.length
  · simp only [if_pos h]
    rw [aux_xs_names _ names 0 (by simp [h])]
    simp
  · simp only [if_neg h]
    have : names ≠ ms.map XsMember.name := fun e => h (by rw [e]; simp)
    simp [this]

theorem aux_xs_error (t : List Byte) (x : XsType) (hk : xsTypeKnown t = true) : xsTypeError t x = false ↔ HasType t x := by
  simp only [xsTypeKnown, List.contains_eq_mem, List.mem_cons, List.not_mem_nil, or_false, decide_eq_true_eq] at hk
  rcases hk with h | h | h | h | h | h | h | h <;> subst h <;> cases x <;>
    simp only [HasType, typeName] <;> decide +kernel

theorem aux_xs_known (t : List Byte) (x : XsType) (h : HasType t x) : xsTypeKnown t = true := by
  rcases h with ⟨h, hn⟩ | ⟨_, h | h⟩
  · rw [h]; cases x <;> first | decide | exact absurd rfl hn
  · rw [h]; decide
  · rw [h]; decide

theorem aux_xs_types (s : XsStruct) : ∀ (types : List (List Byte)) (i : Nat), i + types.length = s.members.length → (∀ t ∈ types, xsTypeKnown t = true) →
    ∃ b, s.typesFrom i types = .gives b ∧ (b = true ↔ AllTyped types (s.members.drop i))
  | [], i, h, _ => by
    have : s.members.drop i = [] := List.drop_of_length_le (by simp at h; omega)
    exact ⟨true, rfl, by rw [this]; exact ⟨fun _ => .nil, fun _ => rfl⟩⟩
  | t :: r, i, h, hk => by
    simp only [List.length_cons] at h
    have hi : i < s.members.length := by omega
    have ht := hk t (by simp)
    have heads : ∀ t m ts ms, AllTyped (t :: ts) (m :: ms) → HasType t m.type ∧ AllTyped ts ms := fun t m ts ms h => by cases h with | cons a b => exact ⟨a, b⟩
    rw [List.drop_eq_getElem_cons hi]
    simp only [XsStruct.typesFrom, ht, Bool.not_true, Bool.false_eq_true, if_false, List.getElem?_eq_getElem hi]
    cases he : xsTypeError t s.members[i].type with
    | true =>
      refine ⟨false, by simp, ?_⟩
      simp only [Bool.false_eq_true, false_iff]
      exact fun h => by rw [(aux_xs_error _ _ ht).mpr (heads _ _ _ _ h).1] at he; cases he
    | false =>
      obtain ⟨b, e, hb⟩ := aux_xs_types s r (i + 1) (by omega) (fun x hx => hk x (by simp [hx]))
      refine ⟨b, by simpa using e, hb.trans ⟨fun h => .cons ((aux_xs_error _ _ ht).mp he) h, fun h => ?_⟩⟩
      exact (heads _ _ _ _ h).2

/-- For a full struct and names of types that exist, `vortex_xml_rpc_struct_check_member_types` says exactly whether the members have those types, in order. -/
theorem C119_types_partial (ms : List XsMember) (types : List XsType) (hn : ∀ t ∈ types, t ≠ .none) :
    ∃ b, (structOf ms.length ms).checkTypes (types.map typeName) = .gives b ∧ (b = true ↔ AllTyped (types.map typeName) ms) := by
  rw [aux_xs_of _ _ (Nat.le_refl _), XsStruct.checkTypes]
  by_cases h : ms.length = (types.map typeName).length
  · simp only [if_pos h]
    obtain ⟨b, e, hb⟩ := aux_xs_types ⟨ms.length, ms⟩ (types.map typeName) 0 (by simpa using h.symm) (by
      intro t ht
      obtain ⟨x, hx, e⟩ := List.mem_map.mp ht
      exact aux_xs_known t x (Or.inl ⟨e.symm, hn x hx⟩))
    exact ⟨b, e, by simpa using hb⟩
  · simp only [if_neg h]
    refine ⟨false, rfl, ?_⟩
    have key : ∀ (ts : List (List Byte)) (ms : List XsMember), AllTyped ts ms → ts.length = ms.length := by
      intro ts ms h; induction h <;> simp_all
    simp only [Bool.false_eq_true, false_iff]
    exact fun hh => h (key _ _ hh).symm

example : AllTyped ([XsType.int, .struct].map typeName) [⟨lit "a", .int, 1⟩, ⟨lit "b", .none, 2⟩] :=
  .cons (Or.inl ⟨rfl, by simp⟩) (.cons (Or.inr ⟨rfl, Or.inl rfl⟩) .nil)

/-- Whatever was added: a member found by its name is the first one added with that name, and there is none found only if none was added. -/
theorem C119_by_name (count : Nat) (ms : List XsMember) (name : List Byte) (v : Nat) :
    (structOf count ms).getByName name = some v ↔
      ∃ before m after, ms.take count = before ++ m :: after ∧ m.name = name ∧ m.value = v ∧ ∀ x ∈ before, x.name ≠ name := by
  rw [XsStruct.getByName, (C119_added count ms).1]
  generalize ms.take count = l
  induction l with
  | nil => simp [xsFind]
  | cons a l ih =>
    simp only [xsFind]
    by_cases h : a.name = name
    · rw [if_pos h]
      constructor
      · intro e; exact ⟨[], a, l, rfl, h, by simpa using e, by simp⟩
      · rintro ⟨before, m, after, e, h1, h2, h3⟩
        cases before with
        | nil => simp at e; rw [e.1]; simpa using h2
        | cons b before => simp at e; exact absurd (by rw [← e.1]; exact h) (h3 b (by simp))
    · rw [if_neg h, ih]
      constructor
      · rintro ⟨before, m, after, e, h1, h2, h3⟩
        exact ⟨a :: before, m, after, by simp [e], h1, h2, by intro x hx; rcases List.mem_cons.mp hx with e | e; rw [e]; exact h; exact h3 x e⟩
      · rintro ⟨before, m, after, e, h1, h2, h3⟩
        cases before with
        | nil => simp at e; exact absurd (by rw [e.1]; exact h1) h
        | cons b before => simp at e; exact ⟨before, m, after, e.2, h1, h2, fun x hx => h3 x (by simp [hx])⟩

/-- Positions in a full struct give its members; others, negative ones too, give nothing. -/
theorem C119_at_partial (ms : List XsMember) (i : Int) :
    (structOf ms.length ms).getAt i = .gives (if 0 ≤ i then ms[i.toNat]?.map XsMember.value else none) ∧
    (structOf ms.length ms).nameAt i = .gives (if 0 ≤ i then ms[i.toNat]?.map XsMember.name else none) := by
  rw [aux_xs_of _ _ (Nat.le_refl _), XsStruct.getAt, XsStruct.nameAt]
  by_cases h0 : 0 ≤ i
  · by_cases h : i < ms.length
    · have hi : i.toNat < ms.length := by omega
      simp [h0, h, hi]
    · have hi : ms.length ≤ i.toNat := by omega
      simp [h0, h]
  · simp [h0]

/-- `vortex_xml_rpc_method_call_is` says yes exactly if the name is that of the call (when one is given), the number is that of its parameters (when it is not -1), and the
types are those of its first parameters. -/
theorem C119_is (c : XsCall) (name : Option (List Byte)) (num : Int) (types : List XsType) :
    c.is name num types = true ↔
      (∀ n, name = some n → c.name = n) ∧ (num = -1 ∨ num = c.params.length) ∧
      ∃ (vs : List (XsType × Int)) (rest : List (Option (XsType × Int))), c.params = vs.map some ++ rest ∧ vs.map Prod.fst = types := by
  have key : ∀ (types : List XsType) (i : Nat), i ≤ c.params.length → (c.typesFrom i types = true ↔
      ∃ (vs : List (XsType × Int)) (rest : List (Option (XsType × Int))), c.params.drop i = vs.map some ++ rest ∧ vs.map Prod.fst = types) := by
    intro types
    induction types with
    | nil => intro i _; simp [XsCall.typesFrom]
    | cons t types ih =>
      intro i hi
      simp only [XsCall.typesFrom]
      by_cases hl : i < c.params.length
      · rw [List.drop_eq_getElem_cons hl, List.getElem?_eq_getElem hl]
        cases hp : c.params[i] with
        | none =>
          simp only [Option.getD_some, Bool.false_eq_true, false_iff]
          rintro ⟨vs, rest, e, h⟩
          cases vs with
          | nil => simp at h
          | cons v vs => simp at e
        | some v =>
          simp only [Option.getD_some]
          by_cases ht : v.1 = t
          · simp only [ht, ne_eq, not_true, if_false, ih (i + 1) (by omega)]
            constructor
            · rintro ⟨vs, rest, e, h⟩; exact ⟨v :: vs, rest, by simp [e], by simp [ht, h]⟩
            · rintro ⟨vs, rest, e, h⟩
              cases vs with
              | nil => simp at h
              | cons w vs => simp at e h; exact ⟨vs, rest, e.2, h.2⟩
          · simp only [ht, ne_eq, not_false_iff, if_true, Bool.false_eq_true, false_iff]
            rintro ⟨vs, rest, e, h⟩
            cases vs with
            | nil => simp at h
            | cons w vs => simp at e h; exact ht (by rw [e.1]; exact h.1)
      · have : c.params[i]? = none := List.getElem?_eq_none (by omega)
        have hd : c.params.drop i = [] := List.drop_of_length_le (by omega)
        simp only [this, Option.getD_none, Bool.false_eq_true, false_iff, hd]
        rintro ⟨vs, rest, e, h⟩
        cases vs with
        | nil => simp at h
        | cons w vs => simp at e
  have k0 := key types 0 (by omega)
  simp only [List.drop_zero] at k0
  rw [← k0]; unfold XsCall.is
  cases name with
  | none =>
    by_cases hn : num ≠ -1 ∧ num ≠ c.params.length
    · simp only [if_pos hn]; simp; intro h; omega
    · simp only [if_neg hn]; simp; intro _; omega
  | some n =>
    by_cases e : c.name = n
    · by_cases hn : num ≠ -1 ∧ num ≠ c.params.length
      · simp only [if_pos hn]; simp [e]; intro h; omega
      · simp only [if_neg hn]; simp [e]; intro _; omega
    · simp [e]

example : (XsCall.mk (lit "sum") [some (.int, 3), some (.int, 4)]).is (some (lit "sum")) 2 [.int, .int] = true := by decide +kernel

/-- An int or boolean parameter is given as it is. -/
theorem C119_int_partial (c : XsCall) (i : Nat) (v : XsType × Int) (h : c.params[i]? = some (some v)) (ht : v.1 = .int ∨ v.1 = .boolean) : c.asInt i = v.2 := by
  have : c.params[(i : Int).toNat]? = some (some v) := by simpa using h
  simp only [XsCall.asInt, this]
  rcases ht with e | e <;> simp [e]

/-- Violation: a string parameter read as an int gives a part of its address, as do structs and arrays; only doubles are refused. -/
theorem C119_int_of_pointer (c : XsCall) (i : Nat) (v : XsType × Int) (h : c.params[i]? = some (some v)) (ht : v.1 ≠ .double) : c.asInt i = v.2 := by
  have : c.params[(i : Int).toNat]? = some (some v) := by simpa using h
  simp only [XsCall.asInt, this]
  simp [ht]

/-- Violation: a struct that is not full yet crashes the checks (of the right names and types, with one more) and the access to its last position, and counts members it
does not have. -/
theorem C119_not_full (ms : List XsMember) (hn : ∀ m ∈ ms, m.type ≠ .none) (n : List Byte) :
    let s := structOf (ms.length + 1) ms
    s.checkNames (ms.map XsMember.name ++ [n]) = .crash ∧ s.checkTypes (ms.map (fun m => typeName m.type) ++ [lit "int"]) = .crash ∧
    s.getAt ms.length = .crash ∧ s.nameAt ms.length = .crash ∧ s.memberCount = ms.length + 1 := by
  simp only
  rw [aux_xs_of _ _ (Nat.le_succ _)]
  have hnames : ∀ (r : List XsMember) (i : Nat), ms.drop i = r → (⟨ms.length + 1, ms⟩ : XsStruct).namesFrom i (r.map XsMember.name ++ [n]) = .crash := by
    intro r
    induction r with
    | nil =>
      intro i hi
      have : ms[i]? = none := List.getElem?_eq_none (by have := congrArg List.length hi; simp at this; omega)
      simp [XsStruct.namesFrom, this]
    | cons a r ih =>
      intro i hi
      have hl : i < ms.length := by have := congrArg List.length hi; simp at this; omega
      rw [List.drop_eq_getElem_cons hl] at hi
      simp only [List.cons.injEq] at hi
      simp only [List.map_cons, List.cons_append, XsStruct.namesFrom, List.getElem?_eq_getElem hl, hi.1, if_true]
      exact ih (i + 1) hi.2
  have htypes : ∀ (r : List XsMember) (i : Nat), ms.drop i = r →
      (⟨ms.length + 1, ms⟩ : XsStruct).typesFrom i (r.map (fun m => typeName m.type) ++ [lit "int"]) = .crash := by
    intro r
    induction r with
    | nil =>
      intro i hi
      have : ms[i]? = none := List.getElem?_eq_none (by have := congrArg List.length hi; simp at this; omega)
      simp only [List.map_nil, List.nil_append, XsStruct.typesFrom, this]
      decide
    | cons a r ih =>
      intro i hi
      have hl : i < ms.length := by have := congrArg List.length hi; simp at this; omega
      have hmem : ms[i] ∈ ms := List.getElem_mem hl
      rw [List.drop_eq_getElem_cons hl] at hi
      simp only [List.cons.injEq] at hi
      rw [hi.1] at hmem
      have ht : HasType (typeName a.type) a.type := Or.inl ⟨rfl, hn a hmem⟩
      have hk := aux_xs_known _ _ ht
      simp only [List.map_cons, List.cons_append, XsStruct.typesFrom, hk, Bool.not_true, Bool.false_eq_true, if_false, List.getElem?_eq_getElem hl, hi.1,
        (aux_xs_error _ _ hk).mpr ht]
      exact ih (i + 1) hi.2
  refine ⟨?_, ?_, ?_, ?_, rfl⟩
  · rw [XsStruct.checkNames, if_pos (by simp)]; exact hnames ms 0 rfl
  · rw [XsStruct.checkTypes, if_pos (by simp)]; exact htypes ms 0 rfl
  · simp [XsStruct.getAt]; omega
  · simp [XsStruct.nameAt]; omega

/-- Violation: the check of types accepts any member for a name that is no type, such as `i4` or `bool`. -/
theorem C119_unknown_type (m : XsMember) : (structOf 1 [m]).checkTypes [lit "i4"] = .gives true ∧ (structOf 1 [m]).checkTypes [lit "bool"] = .gives true := by
  rw [aux_xs_of _ _ (by simp)]
  constructor
  · rw [XsStruct.checkTypes, if_pos (by simp), XsStruct.typesFrom, if_pos (by decide)]; rfl
  · rw [XsStruct.checkTypes, if_pos (by simp), XsStruct.typesFrom, if_pos (by decide)]; rfl

theorem C119_statement_false : ¬ C119_statement := by
  intro h
  have := (h.1 2 [⟨lit "a", .int, 0⟩] (by simp)).1
  exact absurd this (by decide +kernel)

end Verif.Props
