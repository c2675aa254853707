import Verif.Props.C138
import Verif.Spec.GenResult
/-!
# C139: the caller of a generated client gets what the service left
-/
namespace Verif.Props
open Verif.Model Verif.Spec

theorem aux_ge_null (v : GvValue) (h : gvArrives v = .null) : v = .null := by
  cases v with
  | text s => cases s <;> simp [gvArrives] at h
  | null => rfl
  | _ => simp [gvArrives] at h

theorem aux_ge_kind (t : GvType) (v : GvValue) (w : GvWire) (hg : GvGood t) (hs : GvSent t w) (hf : gvFrom t w = gvArrives v) (hv : v ≠ .null) : grKind t w = true := by
  cases hg with
  | int => obtain ⟨_, rfl⟩ := hs; rfl
  | bool => obtain ⟨_, rfl⟩ := hs; rfl
  | double => obtain ⟨_, rfl⟩ := hs; rfl
  | string => obtain ⟨_, rfl⟩ := hs; rfl
  | array =>
    rcases hs with rfl | ⟨_, rfl, _⟩
    · exact absurd (aux_ge_null v (by simpa [gvFrom] using hf.symm)) hv
    · rfl
  | empty =>
    rcases hs with rfl | ⟨_, rfl, _⟩
    · exact absurd (aux_ge_null v (by simpa [gvFrom] using hf.symm)) hv
    · rfl
  | struct =>
    rcases hs with rfl | ⟨_, rfl, _⟩
    · exact absurd (aux_ge_null v (by simpa [gvFrom] using hf.symm)) hv
    · rfl

theorem aux_ge_args (types : List GvType) (args : List GvValue) (hg : ∀ t ∈ types, GvGood t) (ha : GrGiveable types args) :
    ∃ ws, grValues types args = some ws ∧ grAsks types ws = true ∧ grArguments types ws = some (args.map gvArrives) := by
  induction types generalizing args with
  | nil => cases args with
    | nil => exact ⟨[], rfl, rfl, rfl⟩
    | cons => simp [GrGiveable] at ha
  | cons t ts ih => cases args with
    | nil => simp [GrGiveable] at ha
    | cons v vs =>
      obtain ⟨hv, hn, hr⟩ := ha
      obtain ⟨ws, h1, h2, h3⟩ := ih vs (fun t ht => hg t (List.mem_cons_of_mem _ ht)) hr
      obtain ⟨w, hw, hs, hf⟩ := C138_arrives_partial t v (hg t List.mem_cons_self) hv
      refine ⟨w :: ws, by simp [grValues, hw, h1], by simp [grAsks, h2, aux_ge_kind t v w (hg t List.mem_cons_self) hs hf hn], ?_⟩
      have : gvArrives v ≠ .null := fun h => hn (aux_ge_null v h)
      simp [grArguments, h3, this, hf]

theorem aux_ge_serve (types : List GvType) (ret : GvType) (f : List GvValue → GrResult) (args : List GvValue) (hg : ∀ t ∈ types, GvGood t) (ha : GrGiveable types args) :
    ∃ ws, grValues types args = some ws ∧ grServe types ret f ws =
      (match (f (args.map gvArrives)).fault with
      | some s => some (.fault (f (args.map gvArrives)).code s)
      | none =>
        if grNull (f (args.map gvArrives)).value then some (.fault (-2) (lit "Returned a NULL value from a service which returns a pointer type. This is not allowed."))
        else (grValue ret (f (args.map gvArrives)).value).map .ok) := by
  obtain ⟨ws, h1, h2, h3⟩ := aux_ge_args types args hg ha
  refine ⟨ws, h1, ?_⟩
  simp only [grServe, h2, h3, if_true]
  cases (f (args.map gvArrives)).fault <;> rfl

/-- C139: the fault of a service called with the arguments, its code and its text, is the one the caller gets, at once or later. -/
theorem C139_fault_partial (types : List GvType) (ret : GvType) (f : List GvValue → GrResult) (args : List GvValue) (text : List Byte) (hg : ∀ t ∈ types, GvGood t) (ha : GrGiveable types args)
    (hf : (f (args.map gvArrives)).fault = some text) :
    (∃ s, grCall types ret f args = some s ∧ GrFails (f (args.map gvArrives)).code text s) ∧
    ∃ g, grCallAsync types ret f args = some (some (g, false, (f (args.map gvArrives)).code, some text)) := by
  obtain ⟨ws, h1, h2⟩ := aux_ge_serve types ret f args hg ha
  rw [hf] at h2
  simp only [grCall, grCallAsync, h1, h2]
  exact ⟨⟨_, rfl, _, rfl⟩, _, rfl⟩

example : (∀ t ∈ [GvType.int, .string], GvGood t) ∧ GrGiveable [.int, .string] [.num 4, .text none] :=
  ⟨by intro t ht; simp at ht; rcases ht with rfl | rfl <;> constructor, ⟨⟨_, rfl⟩, by decide, ⟨_, rfl⟩, by decide, trivial⟩⟩

/-- C139: a NULL pointer without fault is a fault with code -2. -/
theorem C139_null_partial (types : List GvType) (ret : GvType) (f : List GvValue → GrResult) (args : List GvValue) (hg : ∀ t ∈ types, GvGood t) (ha : GrGiveable types args)
    (hf : (f (args.map gvArrives)).fault = none) (hv : (f (args.map gvArrives)).value = .null ∨ (f (args.map gvArrives)).value = .text none) :
    ∃ s t, grCall types ret f args = some s ∧ GrFails (-2) t s := by
  obtain ⟨ws, h1, h2⟩ := aux_ge_serve types ret f args hg ha
  have hn : grNull (f (args.map gvArrives)).value = true := by rcases hv with h | h <;> rw [h] <;> rfl
  simp only [hf, hn, if_true] at h2
  simp only [grCall, h1, h2]
  exact ⟨_, _, rfl, _, rfl⟩

theorem aux_ge_value (ret : GvType) (v : GvValue) (hr : GvGood ret) (hv : GvFits ret v) (h1 : v ≠ .null) (h2 : v ≠ .text none) : grNull v = false ∧ ∃ w, grValue ret v = some w ∧ GvSent ret w ∧ gvFrom ret w = gvArrives v := by
  constructor
  · cases v with
    | null => exact absurd rfl h1
    | text s => cases s with
      | none => exact absurd rfl h2
      | some => rfl
    | _ => rfl
  · obtain ⟨w, hw, hs, hf⟩ := C138_arrives_partial ret v hr hv
    refine ⟨w, ?_, hs, hf⟩
    cases hr <;> simpa [grValue] using hw

/-- C139: the value of a service called with the arguments is the one the caller gets, if bools are 0 or 1. -/
theorem C139_value_partial (types : List GvType) (ret : GvType) (f : List GvValue → GrResult) (args : List GvValue) (hg : ∀ t ∈ types, GvGood t) (ha : GrGiveable types args)
    (hr : GvGood ret) (hv : GvFits ret (f (args.map gvArrives)).value) (hf : (f (args.map gvArrives)).fault = none) (h1 : (f (args.map gvArrives)).value ≠ .null)
    (h2 : (f (args.map gvArrives)).value ≠ .text none) (hb : ret = .bool → (f (args.map gvArrives)).value = .num 0 ∨ (f (args.map gvArrives)).value = .num 1) :
    ∃ s, grCall types ret f args = some s ∧ GrReturns (gvArrives (f (args.map gvArrives)).value) s := by
  obtain ⟨ws, h3, h4⟩ := aux_ge_serve types ret f args hg ha
  obtain ⟨hn, w, hw, hs, ho⟩ := aux_ge_value ret _ hr hv h1 h2
  simp only [hf, hn, hw, Option.map_some] at h4
  simp only [grCall, h3, h4]
  refine ⟨_, rfl, some (lit "No error reported"), ?_⟩
  have : grTruth ret (gvArrives (f (args.map gvArrives)).value) = gvArrives (f (args.map gvArrives)).value := by
    by_cases hb' : ret = .bool
    · rcases hb hb' with h | h <;> rw [h, hb'] <;> rfl
    · cases ret <;> first | rfl | exact absurd rfl hb'
  simp only [grSync, ho, this]

example : GvGood (.struct (.member (lit "a") .int .nil)) ∧ GvFits (.struct (.member (lit "a") .int .nil)) (.ptr (.cons (.num 3) .nil)) :=
  ⟨.struct (by decide) .int .empty, Or.inr ⟨_, rfl, _, _, rfl, ⟨_, rfl⟩, rfl⟩⟩

/-- C139: the handler of an asynchronous call gets the same value; for a struct or an array it gets the XML-RPC value, from which the function of the type makes the value. -/
theorem C139_async_partial (types : List GvType) (ret : GvType) (f : List GvValue → GrResult) (args : List GvValue) (hg : ∀ t ∈ types, GvGood t) (ha : GrGiveable types args)
    (hr : GvGood ret) (hv : GvFits ret (f (args.map gvArrives)).value) (hf : (f (args.map gvArrives)).fault = none) (h1 : (f (args.map gvArrives)).value ≠ .null)
    (h2 : (f (args.map gvArrives)).value ≠ .text none) :
    grCallAsync types ret f args = some (some (.value (gvArrives (f (args.map gvArrives)).value), true, -1, none)) ∨
    ∃ w, grCallAsync types ret f args = some (some (.wire w, true, -1, none)) ∧ GvSent ret w ∧ gvFrom ret w = gvArrives (f (args.map gvArrives)).value := by
  obtain ⟨ws, h3, h4⟩ := aux_ge_serve types ret f args hg ha
  obtain ⟨hn, w, hw, hs, ho⟩ := aux_ge_value ret _ hr hv h1 h2
  simp only [hf, hn, hw, Option.map_some] at h4
  have hk := aux_ge_kind ret _ w hr hs ho h1
  have hc : grCallAsync types ret f args = some (grAsync ret (.ok w)) := by
    simp only [grCallAsync, h3, h4]; simp
  rw [hc]
  cases hr with
  | int => left; simp [grAsync, ho]
  | bool => left; simp [grAsync, ho]
  | double => left; simp [grAsync, ho]
  | string => left; simp [grAsync, ho]
  | array => right; refine ⟨w, ?_, hs, ho⟩; cases w <;> simp [grKind] at hk; simp [grAsync]
  | empty => right; refine ⟨w, ?_, hs, ho⟩; cases w <;> simp [grKind] at hk; simp [grAsync]
  | struct => right; refine ⟨w, ?_, hs, ho⟩; cases w <;> simp [grKind] at hk; simp [grAsync]

/-- C139: a service is not called for a call of which a struct or array is not one of the type; the caller gets a fault. -/
theorem C139_marshalling_partial (types : List GvType) (ret : GvType) (f : List GvValue → GrResult) (ws : List GvWire) (ha : grAsks types ws = true)
    (hn : ∃ (i : Nat) (t : GvType) (w : GvWire), types[i]? = some t ∧ ws[i]? = some w ∧ ((∃ ms, t = .struct ms) ∨ ∃ u, t = .array u) ∧ gvFrom t w = .null) :
    ∃ text, grServe types ret f ws = some (.fault (-1) text) := by
  have : grArguments types ws = none := by
    clear ha
    obtain ⟨i, t, w, h1, h2, h3, h4⟩ := hn
    induction types generalizing i ws with
    | nil => simp at h1
    | cons u us ih => cases ws with
      | nil => simp at h2
      | cons x xs => cases i with
        | zero =>
          simp at h1 h2
          subst h1 h2
          cases hr : grArguments us xs with
          | none => simp [grArguments, hr]
          | some => rcases h3 with ⟨_, rfl⟩ | ⟨_, rfl⟩ <;> simp [grArguments, hr, grPointer, h4]
        | succ i => simp [grArguments, ih xs i (by simpa using h1) (by simpa using h2)]
  refine ⟨lit "Found marshalling error. Unable to translate XML-RPC structures to native types", ?_⟩
  simp only [grServe, ha, this, if_true]

example : grAsks [.struct (.member (lit "a") .int .nil)] [.struct .nil] = true ∧ gvFrom (.struct (.member (lit "a") .int .nil)) (.struct .nil) = .null := by decide

/-- C139 fails: a call with a NULL struct or array is never answered, and the service not called. -/
theorem C139_nullArgument (types : List GvType) (ret : GvType) (f : List GvValue → GrResult) (args : List GvValue) (hg : ∀ t ∈ types, GvGood t) (ha : GrOfType types args) (hn : .null ∈ args) :
    grCall types ret f args = some .waits := by
  have : ∃ ws, grValues types args = some ws ∧ grAsks types ws = false := by
    induction types generalizing args with
    | nil => cases args with
      | nil => simp at hn
      | cons => simp [GrOfType] at ha
    | cons t ts ih => cases args with
      | nil => simp [GrOfType] at ha
      | cons v vs =>
        obtain ⟨hv, hr⟩ := ha
        obtain ⟨w, hw, hs, hf⟩ := C138_arrives_partial t v (hg t List.mem_cons_self) hv
        have hall : ∀ (ts : List GvType) (vs : List GvValue), (∀ t ∈ ts, GvGood t) → GrOfType ts vs → ∃ ws, grValues ts vs = some ws := by
          intro ts
          induction ts with
          | nil => intro vs _ h; cases vs with
            | nil => exact ⟨[], rfl⟩
            | cons => simp [GrOfType] at h
          | cons u us ihu => intro vs hg h; cases vs with
            | nil => simp [GrOfType] at h
            | cons x xs =>
              obtain ⟨y, hy, _⟩ := C138_arrives_partial u x (hg u List.mem_cons_self) h.1
              obtain ⟨ys, hys⟩ := ihu xs (fun t ht => hg t (List.mem_cons_of_mem _ ht)) h.2
              exact ⟨y :: ys, by simp [grValues, hy, hys]⟩
        by_cases hv0 : v = .null
        · obtain ⟨ws, hws⟩ := hall ts vs (fun t ht => hg t (List.mem_cons_of_mem _ ht)) hr
          refine ⟨w :: ws, by simp [grValues, hw, hws], ?_⟩
          subst hv0
          have hk : grKind t w = false := by
            have hgt := hg t List.mem_cons_self
            cases hgt with
            | array _ _ _ => simp [gvTo] at hw; obtain ⟨_, rfl⟩ := hw; rfl
            | empty => simp [gvTo] at hw; subst hw; rfl
            | struct _ _ _ => simp [gvTo] at hw; subst hw; rfl
            | _ => simp [gvTo] at hw
          simp [grAsks, hk]
        · obtain ⟨ws, hws, hk⟩ := ih vs (fun t ht => hg t (List.mem_cons_of_mem _ ht)) hr (by
            rcases List.mem_cons.1 hn with h | h
            · exact absurd h.symm hv0
            · exact h)
          exact ⟨w :: ws, by simp [grValues, hw, hws], by simp [grAsks, hk]⟩
  obtain ⟨ws, h1, h2⟩ := this
  simp [grCall, h1, grServe, h2, grSync]

example : GrOfType [.struct (.member (lit "a") .int .nil)] [.null] ∧ GvValue.null ∈ [GvValue.null] := ⟨⟨Or.inl rfl, trivial⟩, by simp⟩

/-- C139 fails: a call of no service is never answered. -/
theorem C139_silent (types : List GvType) (ret : GvType) (f : List GvValue → GrResult) (ws : List GvWire) (h : ws.length ≠ types.length) : grServe types ret f ws = some .silent := by
  have : grAsks types ws = false := by
    induction types generalizing ws with
    | nil => cases ws <;> simp [grAsks] at h ⊢
    | cons t ts ih => cases ws with
      | nil => rfl
      | cons w ws => simp [grAsks, ih ws (by simpa using h)]
  simp [grServe, this]

/-- C139 fails: a result of type base64 arrives as NULL, with status OK. -/
theorem C139_base64 (s : List Byte) : grCall [] .base64 (fun _ => ⟨.text (some s), none, -1⟩) [] = some (.got (.text none) true (-1) (some (lit "No error reported"))) := by
  simp [grCall, grValues, grServe, grAsks, grArguments, grNull, grValue, grSync, gvFrom, grTruth]

/-- C139 fails: a result of type bool other than 0 and 1 arrives as false at once, and as it is later. -/
theorem C139_bool (n : Int) (h1 : n ≠ 1) : grCall [] .bool (fun _ => ⟨.num n, none, -1⟩) [] = some (.got (.num 0) true (-1) (some (lit "No error reported"))) ∧
    grCallAsync [] .bool (fun _ => ⟨.num n, none, -1⟩) [] = some (some (.value (.num n), true, -1, none)) := by
  simp [grCall, grCallAsync, grValues, grServe, grAsks, grArguments, grNull, grValue, grSync, grAsync, gvFrom, gvTo, gvAsInt, grTruth, h1]

theorem C139_statement_false : ¬ C139_statement := by
  intro h
  exact h.2 [] .int (fun _ => ⟨.num 1, none, -1⟩) [.int 3] (C139_silent _ _ _ _ (by decide))

end Verif.Props
