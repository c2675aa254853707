import Verif.Spec.LuaParams
/-!
# C144: arguments of the Lua bindings
-/
namespace Verif.Props
open Verif.Model Verif.Spec

theorem aux_lu_fits (l : LupLetter) (v : LupValue) (h : LupFits l v) : lupOne l (some v) = .ok := by
  cases h <;> simp [lupOne, lupObject, lupIsString, lupIsNumber]

theorem aux_lu_object (name : String) (v : LupValue) (hv : ∀ t, v ≠ .table (some t)) (h : lupObject name (some v) = .ok) : v = .userdata (some name) := by
  unfold lupObject at h
  split at h
  · rename_i t e; injection e with e; exact absurd e (hv t)
  · rename_i t e; injection e with e; subst e
    split at h
    · rename_i e; rw [e]
    · cases h
  · cases h

theorem aux_lu_one (l : LupLetter) (v : LupValue) (hb : l ≠ .bar) (hq : l ≠ .queue) (hv : ∀ t, v ≠ .table (some t)) (h : lupOne l (some v) = .ok) : LupFits l v := by
  cases l with
  | ctx => rw [aux_lu_object _ v hv h]; exact .ctx
  | connection => rw [aux_lu_object _ v hv h]; exact .connection
  | channel => rw [aux_lu_object _ v hv h]; exact .channel
  | frame => rw [aux_lu_object _ v hv h]; exact .frame
  | pool => rw [aux_lu_object _ v hv h]; exact .pool
  | queue => exact absurd rfl hq
  | bar => exact absurd rfl hb
  | any => exact .any v
  | str => cases v <;> simp [lupOne, lupIsString] at h <;> constructor
  | optStr => cases v <;> simp [lupOne, lupIsString] at h <;> constructor
  | number =>
    cases v with
    | string n => cases n with
      | true => exact .numberStr
      | false => simp [lupOne, lupIsNumber] at h
    | number => exact .number
    | _ => simp [lupOne, lupIsNumber] at h
  | bool => cases v <;> simp [lupOne] at h <;> constructor
  | function => cases v <;> simp [lupOne] at h <;> constructor
  | optFunction => cases v <;> simp [lupOne] at h <;> constructor

theorem aux_lu_loop (args : List LupValue) (d : Nat) (m : Bool) : ∀ (ps : List LupLetter) (it : Nat), LupLetters ps →
    (lupLoop args ps it d m).2 = m ∧
    ((lupLoop args ps it d m).1 = .ok ↔ ∀ j l, ps[j]? = some l → it + j < args.length → lupOne l args[it + j + d - 1]? = .ok) := by
  intro ps
  induction ps with
  | nil => intro it _; simp [lupLoop]
  | cons p ps ih =>
    intro it hb
    have hp : p ≠ .bar := fun e => hb (by rw [e]; simp)
    have hps : LupLetters ps := fun e => hb (by simp [e])
    unfold lupLoop
    by_cases hl : it < args.length
    · simp only [hl, if_true, hp, if_false]
      have ih' := ih (it + 1) hps
      cases ho : lupOne p args[it + d - 1]? with
      | ok =>
        refine ⟨ih'.1, ih'.2.trans ⟨?_, ?_⟩⟩
        · intro h j l hj hlt
          cases j with
          | zero => simp at hj; subst hj; exact ho
          | succ j =>
            have := h j l (by simpa using hj) (by omega)
            rw [show it + (j + 1) + d - 1 = it + 1 + j + d - 1 by omega]; exact this
        · intro h j l hj hlt
          have := h (j + 1) l (by simpa using hj) (by omega)
          rw [show it + (j + 1) + d - 1 = it + 1 + j + d - 1 by omega] at this; exact this
      | refused =>
        refine ⟨rfl, ⟨(fun h => by cases h), fun h => ?_⟩⟩
        have := h 0 p rfl (by simpa using hl)
        rw [show it + 0 + d - 1 = it + d - 1 by omega, ho] at this; cases this
      | raised =>
        refine ⟨rfl, ⟨(fun h => by cases h), fun h => ?_⟩⟩
        have := h 0 p rfl (by simpa using hl)
        rw [show it + 0 + d - 1 = it + d - 1 by omega, ho] at this; cases this
    · simp only [hl, if_false]
      exact ⟨trivial, by simp; intro j l _ h; omega⟩

theorem aux_lu_append (args : List LupValue) (d : Nat) (m : Bool) (rest : List LupLetter) : ∀ (ps : List LupLetter) (it : Nat), LupLetters ps →
    lupLoop args (ps ++ rest) it d m =
      if (lupLoop args ps it d m).1 = .ok ∧ it + ps.length ≤ args.length then lupLoop args rest (it + ps.length) d m else lupLoop args ps it d m := by
  intro ps
  induction ps with
  | nil =>
    intro it _
    by_cases hl : it ≤ args.length
    · simp [lupLoop, hl]
    · cases rest with
      | nil => simp [lupLoop]
      | cons r rs => simp [lupLoop, hl, show ¬ it < args.length by omega]
  | cons p ps ih =>
    intro it hb
    have hp : p ≠ .bar := fun e => hb (by rw [e]; simp)
    have hps : LupLetters ps := fun e => hb (by simp [e])
    rw [List.cons_append, lupLoop, lupLoop]
    by_cases hl : it < args.length
    · simp only [hl, if_true, hp, if_false]
      cases ho : lupOne p args[it + d - 1]? with
      | ok =>
        dsimp only
        rw [ih (it + 1) hps, show it + 1 + ps.length = it + (p :: ps).length by simp; omega]
      | refused => simp
      | raised => simp
    · simp only [hl, if_false]
      rw [if_neg (by simp; omega)]

theorem aux_lu_expected (ps rest : List LupLetter) (h : LupLetters ps) : lupExpected (ps ++ .bar :: rest) = ps.length ∧ lupExpected ps = ps.length := by
  induction ps with
  | nil => simp [lupExpected]
  | cons p ps ih =>
    have hp : p ≠ .bar := fun e => h (by rw [e]; simp)
    have := ih (fun e => h (by simp [e]))
    simp [lupExpected, hp, this.1, this.2]

/-- All arguments required were found to fit. -/
def aux_lu_must (must : List LupLetter) (args : List LupValue) : Prop :=
  ∀ j l, must[j]? = some l → j < args.length → lupOne l args[j]? = .ok

/-- The optional arguments were found to fit, except the last one received. -/
def aux_lu_may (must may : List LupLetter) (args : List LupValue) : Prop :=
  ∀ j l, may[j]? = some l → must.length + 1 + j < args.length → lupOne l args[must.length + j]? = .ok

/-- What is accepted. -/
theorem aux_lu_ok (must : List LupLetter) (may : Option (List LupLetter)) (args : List LupValue) (h1 : LupLetters must) (h2 : LupLetters (may.getD [])) :
    lupCheck (LupPattern must may) args = .ok ↔
      must.length ≤ args.length ∧ (may = none → args.length = must.length) ∧ aux_lu_must must args ∧ aux_lu_may must (may.getD []) args := by
  have hm := aux_lu_loop args 1 true must 0 h1
  have hm2 : (lupLoop args must 0 1 true).1 = .ok ↔ aux_lu_must must args := by
    rw [hm.2]; unfold aux_lu_must; simp
  cases may with
  | none =>
    simp only [LupPattern, lupCheck, (aux_lu_expected must [] h1).2]
    cases hr : lupLoop args must 0 1 true with
    | mk r b =>
      rw [hr] at hm hm2
      have hb : b = true := hm.1
      subst hb
      cases r with
      | ok =>
        have : aux_lu_must must args := hm2.1 rfl
        dsimp only
        simp only [this, Option.getD_none, true_and, forall_const]
        have hmay : aux_lu_may must [] args := by intro j l hj; simp at hj
        simp only [hmay, and_true]
        split
        · rename_i hlt; simp; omega
        · split
          · rename_i hlt; simp; omega
          · simp; omega
      | refused =>
        have : ¬ aux_lu_must must args := fun h => by have := hm2.2 h; cases this
        simp [this]
      | raised =>
        have : ¬ aux_lu_must must args := fun h => by have := hm2.2 h; cases this
        simp [this]
  | some may =>
    simp only [LupPattern, lupCheck, (aux_lu_expected must may h1).1, aux_lu_append args 1 true (.bar :: may) must 0 h1, Nat.zero_add, Option.getD_some]
    by_cases hc : (lupLoop args must 0 1 true).1 = .ok ∧ must.length ≤ args.length
    · rw [if_pos hc]
      have hmust := hm2.1 hc.1
      by_cases hl : must.length < args.length
      · have hy := aux_lu_loop args 0 false may (must.length + 1) h2
        have e : lupLoop args (.bar :: may) must.length 1 true = lupLoop args may (must.length + 1) 0 false := by
          rw [lupLoop]; simp [hl]
        rw [e]
        have hmay : (lupLoop args may (must.length + 1) 0 false).1 = .ok ↔ aux_lu_may must may args := by
          rw [hy.2]; unfold aux_lu_may
          constructor
          · intro h j l hj hlt; have := h j l hj hlt; rw [show must.length + 1 + j + 0 - 1 = must.length + j by omega] at this; exact this
          · intro h j l hj hlt; have := h j l hj hlt; rw [show must.length + 1 + j + 0 - 1 = must.length + j by omega]; exact this
        cases hr : lupLoop args may (must.length + 1) 0 false with
        | mk r b =>
          rw [hr] at hy hmay
          have hb : b = false := hy.1
          subst hb
          cases r with
          | ok => simp [hmay.1 rfl, hmust, hc.2]
          | refused => 
            have : ¬ aux_lu_may must may args := fun h => by have := hmay.2 h; cases this
            simp [this]
          | raised =>
            have : ¬ aux_lu_may must may args := fun h => by have := hmay.2 h; cases this
            simp [this]
      · have e : lupLoop args (.bar :: may) must.length 1 true = (.ok, true) := by
          rw [lupLoop]; simp [hl]
        rw [e]
        have hmay : aux_lu_may must may args := by intro j l hj h; omega
        simp [hmust, hmay, hc.2, hl]
    · rw [if_neg hc]
      cases hr : lupLoop args must 0 1 true with
      | mk r b =>
        rw [hr] at hm hm2 hc
        have hb : b = true := hm.1
        subst hb
        cases r with
        | ok =>
          have : ¬ must.length ≤ args.length := fun h => hc ⟨rfl, h⟩
          simp [this, show args.length < must.length by omega]
        | refused =>
          have : ¬ aux_lu_must must args := fun h => by have := hm2.2 h; cases this
          simp [this]
        | raised =>
          have : ¬ aux_lu_must must args := fun h => by have := hm2.2 h; cases this
          simp [this]

theorem aux_lu_get (args : List LupValue) (i : Nat) (h : i < args.length) : ∃ v, args[i]? = some v := ⟨args[i], by simp [h]⟩

/-- **C144, accepted.** A method never refuses the arguments it expects. -/
theorem C144_accepts_partial (must : List LupLetter) (may : Option (List LupLetter)) (args : List LupValue) (h1 : LupLetters must) (h2 : LupLetters (may.getD []))
    (h : LupConforms must may args) : lupCheck (LupPattern must may) args = .ok := by
  rw [aux_lu_ok must may args h1 h2]
  obtain ⟨a, b, c⟩ := h
  refine ⟨a, fun e => by subst e; simp at b; omega, ?_, ?_⟩
  · intro j l hj hlt
    obtain ⟨v, hv⟩ := aux_lu_get args j hlt
    have hjl : j < must.length := by
      by_cases hl : j < must.length
      · exact hl
      · rw [List.getElem?_eq_none (by omega)] at hj; cases hj
    rw [hv]; exact aux_lu_fits l v (c j l v (by rw [List.getElem?_append_left hjl]; exact hj) hv)
  · intro j l hj hlt
    obtain ⟨v, hv⟩ := aux_lu_get args (must.length + j) (by omega)
    rw [hv]
    exact aux_lu_fits l v (c (must.length + j) l v (by rw [List.getElem?_append_right (by omega)]; simpa using hj) hv)

example : LupConforms [.connection, .str] (some [.number]) [.userdata (some "vortex.connection"), .string false, .string true] ∧
    lupCheck (LupPattern [.connection, .str] (some [.number])) [.userdata (some "vortex.connection"), .string false, .string true] = .ok := by
  refine ⟨⟨by decide, by decide, ?_⟩, by decide +kernel⟩
  intro i l v h1 h2
  match i with
  | 0 => simp at h1 h2; subst h1 h2; constructor
  | 1 => simp at h1 h2; subst h1 h2; constructor
  | 2 => simp at h1 h2; subst h1 h2; constructor
  | n + 3 => simp at h1

/-- **C144, required arguments.** A method that goes on has all arguments it requires, each of the kind expected, and every optional one that is not the last received is of the kind expected. -/
theorem C144_required_partial (must : List LupLetter) (may : Option (List LupLetter)) (args : List LupValue) (h1 : LupLetters must) (h2 : LupLetters (may.getD []))
    (hq : LupNoQueue (must ++ may.getD [])) (hh : LupHonest args) (h : lupCheck (LupPattern must may) args = .ok) :
    must.length ≤ args.length ∧
    ∀ (i : Nat) (l : LupLetter) (v : LupValue), (must ++ may.getD [])[i]? = some l → args[i]? = some v → i < must.length ∨ i + 1 < args.length → LupFits l v := by
  obtain ⟨a, b, c, d⟩ := (aux_lu_ok must may args h1 h2).1 h
  refine ⟨a, ?_⟩
  intro i l v hl hv hi
  have hmem := List.mem_of_getElem? hl
  have hb : l ≠ .bar := by
    intro e; subst e
    rcases List.mem_append.1 hmem with hm | hm
    · exact h1 hm
    · exact h2 hm
  have hlq : l ≠ .queue := fun e => hq (by rw [← e]; exact hmem)
  have hvt : ∀ t, v ≠ .table (some t) := fun t e => hh t (by rw [← e]; exact List.mem_of_getElem? hv)
  have hlt : i < args.length := by
    by_cases hl : i < args.length
    · exact hl
    · rw [List.getElem?_eq_none (by omega)] at hv; cases hv
  refine aux_lu_one l v hb hlq hvt ?_
  by_cases hm : i < must.length
  · rw [List.getElem?_append_left hm] at hl
    rw [← hv]; exact c i l hl hlt
  · rw [List.getElem?_append_right (by omega)] at hl
    have hi' : i + 1 < args.length := by omega
    have := d (i - must.length) l hl (by omega)
    rw [show must.length + (i - must.length) = i by omega, hv] at this; exact this

/-- **C144, methods without optional arguments.** They go on exactly if their arguments are those expected. -/
theorem C144_exact_partial (must : List LupLetter) (args : List LupValue) (h1 : LupLetters must) (hq : LupNoQueue must) (hh : LupHonest args) :
    lupCheck must args = .ok ↔ LupConforms must none args := by
  constructor
  · intro h
    have hq' : LupNoQueue (must ++ (none : Option (List LupLetter)).getD []) := by simpa using hq
    have hr := C144_required_partial must none args h1 (by simp [LupLetters]) hq' hh h
    obtain ⟨a, b, _⟩ := (aux_lu_ok must none args h1 (by simp [LupLetters])).1 h
    refine ⟨hr.1, by have := b rfl; simp; omega, ?_⟩
    intro i l v hl hv
    refine hr.2 i l v hl hv (Or.inl ?_)
    have := b rfl
    by_cases hl' : i < args.length
    · omega
    · rw [List.getElem?_eq_none (by omega)] at hv; cases hv
  · intro h
    exact C144_accepts_partial must none args h1 (by simp [LupLetters]) h

example : LupHonest [.userdata (some "vortex.channel"), .number] ∧ LupNoQueue [.channel, .str] ∧
    lupCheck [.channel, .str] [.userdata (some "vortex.channel"), .number] = .ok ∧
    lupCheck [.channel, .str] [.userdata (some "vortex.channel"), .nil] = .raised ∧
    lupCheck [.channel, .str] [.userdata (some "vortex.channel")] = .raised := by
  refine ⟨?_, ?_, by decide +kernel, by decide +kernel, by decide +kernel⟩
  · intro t; simp
  · simp [LupNoQueue]

/-- **C144 is violated**: when a method with optional arguments is given one, the last argument is not looked at. -/
theorem C144_lastUnchecked (must may : List LupLetter) (args : List LupValue) (v : LupValue) (h1 : LupLetters must) (h2 : LupLetters may)
    (h : LupConforms must (some may) args) : lupCheck (LupPattern must (some may)) (args ++ [v]) = .ok := by
  obtain ⟨a, b, c⟩ := h
  rw [aux_lu_ok must (some may) (args ++ [v]) h1 h2]
  refine ⟨by simp; omega, (fun e => by cases e), ?_, ?_⟩
  · intro j l hj hlt
    have hjl : j < must.length := by
      by_cases hl : j < must.length
      · exact hl
      · rw [List.getElem?_eq_none (by omega)] at hj; cases hj
    obtain ⟨w, hw⟩ := aux_lu_get args j (by omega)
    rw [List.getElem?_append_left (by omega), hw]
    exact aux_lu_fits l w (c j l w (by rw [List.getElem?_append_left hjl]; exact hj) hw)
  · intro j l hj hlt
    simp only [List.length_append, List.length_singleton] at hlt
    obtain ⟨w, hw⟩ := aux_lu_get args (must.length + j) (by omega)
    rw [List.getElem?_append_left (by omega), hw]
    exact aux_lu_fits l w (c (must.length + j) l w (by rw [List.getElem?_append_right (by omega)]; simpa using hj) hw)

/-- The pattern of `conn:block`: any second argument is accepted. -/
example (v : LupValue) : lupCheck (LupPattern [.connection] (some [.bool])) [.userdata (some "vortex.connection"), v] = .ok :=
  C144_lastUnchecked [.connection] [.bool] [.userdata (some "vortex.connection")] v (by simp [LupLetters]) (by simp [LupLetters])
    ⟨by decide, by decide, fun i l w h1 h2 => by
      match i with
      | 0 => simp at h1 h2; subst h1 h2; constructor
      | n + 1 => simp at h2⟩

/-- **C144 is violated**: methods with optional arguments accept any number of arguments more. -/
theorem C144_tooMany (must may : List LupLetter) (args more : List LupValue) (h1 : LupLetters must) (h2 : LupLetters may)
    (h : LupConforms must (some may) args) (hl : args.length = must.length + may.length) (hm : more ≠ []) :
    lupCheck (LupPattern must (some may)) (args ++ more) = .ok ∧ ¬ LupConforms must (some may) (args ++ more) := by
  obtain ⟨a, b, c⟩ := h
  have hpos : 0 < more.length := List.length_pos_iff.2 hm
  constructor
  · rw [aux_lu_ok must (some may) (args ++ more) h1 h2]
    refine ⟨by simp; omega, (fun e => by cases e), ?_, ?_⟩
    · intro j l hj hlt
      have hjl : j < must.length := by
        by_cases hl : j < must.length
        · exact hl
        · rw [List.getElem?_eq_none (by omega)] at hj; cases hj
      obtain ⟨w, hw⟩ := aux_lu_get args j (by omega)
      rw [List.getElem?_append_left (by omega), hw]
      exact aux_lu_fits l w (c j l w (by rw [List.getElem?_append_left hjl]; exact hj) hw)
    · intro j l hj hlt
      have hjl : j < may.length := by
        by_cases hl : j < may.length
        · exact hl
        · simp only [Option.getD_some] at hj; rw [List.getElem?_eq_none (by omega)] at hj; cases hj
      obtain ⟨w, hw⟩ := aux_lu_get args (must.length + j) (by omega)
      rw [List.getElem?_append_left (by omega), hw]
      exact aux_lu_fits l w (c (must.length + j) l w (by rw [List.getElem?_append_right (by omega)]; simpa using hj) hw)
  · rintro ⟨_, h3, _⟩
    simp at h3; omega

/-- **C144 is violated**: a table whose metatable names the type passes for an object of the bindings. -/
theorem C144_forged (must : List LupLetter) (args : List LupValue) (h1 : LupLetters must) (h : LupConforms must none args) (k : Nat) (t : String)
    (hk : args[k]? = some (.userdata (some t))) :
    lupCheck must (args.set k (.table (some t))) = .ok := by
  obtain ⟨a, b, c⟩ := h
  simp at b
  have := (aux_lu_ok must none (args.set k (.table (some t))) h1 (by simp [LupLetters])).2
  refine this ⟨by simp; omega, (fun _ => by simp; omega), ?_, (by intro j l hj; simp at hj)⟩
  intro j l hj hlt
  simp only [List.length_set] at hlt
  obtain ⟨w, hw⟩ := aux_lu_get args j hlt
  have hf := c j l w (by simpa using hj) hw
  by_cases hjk : k = j
  · subst hjk
    rw [List.getElem?_set_self hlt]
    rw [hk] at hw; injection hw with hw; subst hw
    cases hf <;> simp [lupOne, lupObject]
  · rw [List.getElem?_set_ne hjk, hw]; exact aux_lu_fits l w hf

/-- **C144, types.** Also with tables that pretend to be objects, what is accepted where an object is needed carries the name of the type needed. -/
theorem C144_named_partial (must : List LupLetter) (args : List LupValue) (h1 : LupLetters must) (h : lupCheck must args = .ok)
    (i : Nat) (l : LupLetter) (v : LupValue) (t : String) (hl : must[i]? = some l) (hv : args[i]? = some v) (ht : LupType l = some t) :
    v = .table (some t) ∨ v = .userdata (some t) := by
  obtain ⟨a, b, c, _⟩ := (aux_lu_ok must none args h1 (by simp [LupLetters])).1 h
  have hi : i < args.length := (List.getElem?_eq_some_iff.mp hv).1
  have hc := c i l (by simpa using hl) hi
  rw [hv] at hc
  have key : ∀ name, lupObject name (some v) = .ok → v = .table (some name) ∨ v = .userdata (some name) := by
    intro name hn
    unfold lupObject at hn
    split at hn
    · rename_i u e; injection e with e; subst e
      split at hn
      · rename_i hu; rw [hu]; exact Or.inl rfl
      · cases hn
    · rename_i u e; injection e with e; subst e
      split at hn
      · rename_i hu; rw [hu]; exact Or.inr rfl
      · cases hn
    · cases hn
  cases l <;> simp only [LupType] at ht <;> first | (cases ht; exact key _ hc) | cases ht

example : lupCheck [.connection, .number] [.table (some "vortex.connection"), .number] = .ok := by decide +kernel

/-- **C144 is violated**: an object of another type is refused without an error. -/
theorem C144_silent (ps : List LupLetter) (args : List LupValue) (t : String) (ht : t ≠ "vortex.connection") :
    lupCheck (.connection :: ps) (.userdata (some t) :: args) = .refused := by
  simp [lupCheck, lupLoop, lupOne, lupObject, ht]

example : lupCheck [.connection] [.userdata (some "vortex.channel")] = .refused ∧ lupCheck [.connection] [.nil] = .raised := by decide +kernel

/-- C144 does not hold as stated. -/
theorem C144_statement_false : ¬ C144_statement := by
  intro h
  have := (h [.connection] none [.userdata (some "vortex.channel")] (by simp [LupLetters]) (by simp [LupLetters])).2 (by
    rintro ⟨_, _, hc⟩
    have := aux_lu_fits _ _ (hc 0 .connection (.userdata (some "vortex.channel")) rfl rfl)
    revert this; decide +kernel)
  revert this; decide +kernel

end Verif.Props
