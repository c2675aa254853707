import Verif.Spec.Profiles
/-!
# C76, C77: profiles registered
-/
namespace Verif.Props
open Verif.Model Verif.Spec

/-- C76, full: after every history, the functions that look at a profile tell what the application set last since it was registered,
and channels and frames go to those handlers. False of the code. -/
def C76_statement : Prop :=
  ∀ (ops : List ProfOp) (uri : Nat), let r := ProfReg.init.run ops; let hist := ops.reverse
    r.isRegistered uri = registeredNow uri hist ∧
    r.startWho uri = startExpected uri hist ∧
    r.closeWho uri = (if registeredNow uri hist then some (orNull (lastSetting uri (givesClose uri) hist)) else none) ∧
    r.receivedWho uri = orNull (lastSetting uri (givesReceived uri) hist) ∧
    r.mimeOf uri = (if registeredNow uri hist then some (lastSetting uri (givesMime uri) hist, lastSetting uri (givesEncoding uri) hist) else none) ∧
    r.autoOf uri = (lastSetting uri (givesAuto uri) hist).getD 0 ∧
    r.definedReceived uri = (orNull (lastSetting uri (givesReceived uri) hist)).isSome

theorem aux_pf_lookup_cons (l : List (Nat × ProfSettings)) (k v : Nat) (p : ProfSettings) :
    ((k, p) :: l).lookup v = if v = k then some p else l.lookup v := by
  rw [List.lookup_cons]
  by_cases h : v = k
  · simp [h]
  · have : (v == k) = false := by simpa using h
    rw [this, if_neg h]

theorem aux_pf_lookup_filter (l : List (Nat × ProfSettings)) (u v : Nat) :
    (l.filter (·.1 ≠ u)).lookup v = if v = u then none else l.lookup v := by
  induction l with
  | nil => simp
  | cons e l ih =>
    obtain ⟨k, p⟩ := e
    rw [List.filter_cons]
    by_cases hk : k = u
    · subst hk
      simp only [ne_eq, not_true, decide_false, Bool.false_eq_true, if_false]
      rw [ih]
      by_cases hv : v = k
      · simp [hv]
      · simp [hv, aux_pf_lookup_cons]
    · simp only [ne_eq, hk, not_false_eq_true, decide_true, if_true]
      rw [aux_pf_lookup_cons, aux_pf_lookup_cons, ih]
      by_cases hv : v = k
      · subst hv; simp [hk]
      · simp [hv]

theorem aux_pf_lookup_map (l : List (Nat × ProfSettings)) (u v : Nat) (f : ProfSettings → ProfSettings) :
    (l.map fun e => if e.1 = u then (e.1, f e.2) else e).lookup v = if v = u then (l.lookup v).map f else l.lookup v := by
  induction l with
  | nil => simp
  | cons e l ih =>
    obtain ⟨k, p⟩ := e
    rw [List.map_cons]
    by_cases hk : k = u
    · subst hk
      simp only [if_true, aux_pf_lookup_cons, ih]
      by_cases hv : v = k <;> simp [hv]
    · simp only [hk, if_false, aux_pf_lookup_cons, ih]
      by_cases hv : v = k
      · subst hv; simp [hk]
      · simp [hv]

theorem aux_pf_find_create (r : ProfReg) (u v : Nat) (p : ProfSettings) :
    (r.create u p).find v = if v = u then some p else r.find v := by
  simp only [ProfReg.find, ProfReg.create, aux_pf_lookup_cons, aux_pf_lookup_filter]
  by_cases hv : v = u <;> simp [hv]

theorem aux_pf_find_modify (r : ProfReg) (u v : Nat) (f : ProfSettings → ProfSettings) :
    (r.modify u f).find v = if v = u then (r.find v).map f else r.find v := by
  simp only [ProfReg.find, ProfReg.modify, aux_pf_lookup_map]

/-- What the record of a profile should be. -/
def aux_pf_expected (uri : Nat) (hist : List ProfOp) : Option ProfSettings :=
  if registeredNow uri hist then
    some ⟨orNull (lastSetting uri (givesStart uri) hist), orNull (lastSetting uri (givesExt uri) hist),
      orNull (lastSetting uri (givesClose uri) hist), orNull (lastSetting uri (givesReceived uri) hist),
      lastSetting uri (givesMime uri) hist, lastSetting uri (givesEncoding uri) hist, (lastSetting uri (givesAuto uri) hist).getD 0⟩
  else none

theorem aux_pf_unregistered {α : Type} (uri : Nat) (g : ProfOp → Option α) (hist : List ProfOp) (h : registeredNow uri hist = false) :
    lastSetting uri g hist = none := by
  cases hist with
  | nil => rfl
  | cons op older =>
    simp only [registeredNow] at h
    simp only [lastSetting]
    split
    · rfl
    · next hn => rw [if_neg hn] at h; simp [h]

theorem aux_pf_step (r : ProfReg) (hist : List ProfOp) (uri : Nat) (op : ProfOp) (h : ∀ u, r.find u = aux_pf_expected u hist) :
    (r.step op).1.find uri = aux_pf_expected uri (op :: hist) := by
  have hu := h uri
  have hunr := fun (α : Type) (g : ProfOp → Option α) => aux_pf_unregistered uri g hist
  cases op with
  | register u s c v =>
    by_cases huu : uri = u
    · subst huu
      simp only [ProfReg.step]
      cases hreg : registeredNow uri hist
      · have : r.find uri = none := by rw [hu, aux_pf_expected, hreg]; rfl
        rw [this]; simp [aux_pf_find_create, aux_pf_expected, registeredNow, registersUri, lastSetting, givesStart, givesExt, givesClose,
          givesReceived, givesMime, givesEncoding, givesAuto, orNull, ProfSettings.new, hunr _ _ hreg]
      · have : r.find uri = aux_pf_expected uri hist := hu
        simp only [aux_pf_expected, hreg, if_true] at this
        rw [this]; simp [aux_pf_find_modify, this, aux_pf_expected, registeredNow, registersUri, lastSetting, givesStart, givesExt, givesClose,
          givesReceived, givesMime, givesEncoding, givesAuto, orNull]
    · have hne : ¬ u = uri := fun e => huu e.symm
      have : (r.step (.register u s c v)).1.find uri = r.find uri := by
        simp only [ProfReg.step]
        split <;> simp [aux_pf_find_create, aux_pf_find_modify, huu]
      rw [this, hu]
      cases hreg : registeredNow uri hist <;>
        simp [aux_pf_expected, registeredNow, registersUri, lastSetting, givesStart, givesExt, givesClose,
          givesReceived, givesMime, givesEncoding, givesAuto, hne, hreg]
  | registerExt u e =>
    by_cases huu : uri = u
    · subst huu
      simp only [ProfReg.step]
      cases hreg : registeredNow uri hist
      · have : r.find uri = none := by rw [hu, aux_pf_expected, hreg]; rfl
        rw [this]; simp [aux_pf_find_create, aux_pf_expected, registeredNow, registersUri, lastSetting, givesStart, givesExt, givesClose,
          givesReceived, givesMime, givesEncoding, givesAuto, orNull, ProfSettings.new, hunr _ _ hreg]
      · have : r.find uri = aux_pf_expected uri hist := hu
        simp only [aux_pf_expected, hreg, if_true] at this
        rw [this]; simp [aux_pf_find_modify, this, aux_pf_expected, registeredNow, registersUri, lastSetting, givesStart, givesExt, givesClose,
          givesReceived, givesMime, givesEncoding, givesAuto, orNull]
    · have hne : ¬ u = uri := fun e => huu e.symm
      have : (r.step (.registerExt u e)).1.find uri = r.find uri := by
        simp only [ProfReg.step]
        split <;> simp [aux_pf_find_create, aux_pf_find_modify, huu]
      rw [this, hu]
      cases hreg : registeredNow uri hist <;>
        simp [aux_pf_expected, registeredNow, registersUri, lastSetting, givesStart, givesExt, givesClose,
          givesReceived, givesMime, givesEncoding, givesAuto, hne, hreg]
  | setReceived u v =>
    by_cases huu : uri = u
    · subst huu
      simp only [ProfReg.step]
      cases hreg : registeredNow uri hist
      · have : r.find uri = none := by rw [hu, aux_pf_expected, hreg]; rfl
        rw [this]; simp [this, aux_pf_expected, registeredNow, registersUri, hreg]
      · have : r.find uri = aux_pf_expected uri hist := hu
        simp only [aux_pf_expected, hreg, if_true] at this
        rw [this]; simp [aux_pf_find_modify, this, aux_pf_expected, registeredNow, registersUri, lastSetting, givesStart, givesExt, givesClose,
          givesReceived, givesMime, givesEncoding, givesAuto, orNull, hreg]
    · have hne : ¬ u = uri := fun e => huu e.symm
      have : (r.step (.setReceived u v)).1.find uri = r.find uri := by
        simp only [ProfReg.step]
        split <;> simp [aux_pf_find_modify, huu]
      rw [this, hu]
      cases hreg : registeredNow uri hist <;>
        simp [aux_pf_expected, registeredNow, registersUri, lastSetting, givesStart, givesExt, givesClose,
          givesReceived, givesMime, givesEncoding, givesAuto, hne, hreg]
  | unregister u =>
    by_cases huu : uri = u
    · subst huu
      simp only [ProfReg.step]
      have : aux_pf_expected uri (.unregister uri :: hist) = none := by simp [aux_pf_expected, registeredNow]
      rw [this]
      split
      · assumption
      · simp only [ProfReg.find, aux_pf_lookup_filter, if_true]
    · have hne : ¬ u = uri := fun e => huu e.symm
      have : (r.step (.unregister u)).1.find uri = r.find uri := by
        simp only [ProfReg.step]
        split
        · rfl
        · simp only [ProfReg.find, aux_pf_lookup_filter]; rw [if_neg huu]
      rw [this, hu]
      cases hreg : registeredNow uri hist <;>
        simp [aux_pf_expected, registeredNow, registersUri, lastSetting, givesStart, givesExt, givesClose,
          givesReceived, givesMime, givesEncoding, givesAuto, hne, hreg]
  | setMime u m t =>
    by_cases huu : uri = u
    · subst huu
      simp only [ProfReg.step]
      cases hreg : registeredNow uri hist
      · have : r.find uri = none := by rw [hu, aux_pf_expected, hreg]; rfl
        rw [this]; simp [this, aux_pf_expected, registeredNow, registersUri, hreg]
      · have : r.find uri = aux_pf_expected uri hist := hu
        simp only [aux_pf_expected, hreg, if_true] at this
        rw [this]; cases m <;> cases t <;> simp [aux_pf_find_modify, this, aux_pf_expected, registeredNow, registersUri, lastSetting, givesStart, givesExt, givesClose,
          givesReceived, givesMime, givesEncoding, givesAuto, orNull, hreg]
    · have hne : ¬ u = uri := fun e => huu e.symm
      have : (r.step (.setMime u m t)).1.find uri = r.find uri := by
        simp only [ProfReg.step]
        split <;> simp [aux_pf_find_modify, huu]
      rw [this, hu]
      cases hreg : registeredNow uri hist <;>
        simp [aux_pf_expected, registeredNow, registersUri, lastSetting, givesStart, givesExt, givesClose,
          givesReceived, givesMime, givesEncoding, givesAuto, hne, hreg]
  | setAuto u v =>
    by_cases hv : v ≤ 2
    · by_cases huu : uri = u
      · subst huu
        simp only [ProfReg.step]
        rw [if_pos hv]
        cases hreg : registeredNow uri hist
        · have : r.find uri = none := by rw [hu, aux_pf_expected, hreg]; rfl
          rw [this]; simp [this, aux_pf_expected, registeredNow, registersUri, hreg]
        · have : r.find uri = aux_pf_expected uri hist := hu
          simp only [aux_pf_expected, hreg, if_true] at this
          rw [this]; simp [aux_pf_find_modify, this, aux_pf_expected, registeredNow, registersUri, lastSetting, givesStart, givesExt, givesClose,
            givesReceived, givesMime, givesEncoding, givesAuto, orNull, hreg, hv]
      · have hne : ¬ u = uri := fun e => huu e.symm
        have : (r.step (.setAuto u v)).1.find uri = r.find uri := by
          simp only [ProfReg.step]; rw [if_pos hv]
          split <;> simp [aux_pf_find_modify, huu]
        rw [this, hu]
        cases hreg : registeredNow uri hist <;>
          simp [aux_pf_expected, registeredNow, registersUri, lastSetting, givesStart, givesExt, givesClose,
            givesReceived, givesMime, givesEncoding, givesAuto, hne, hreg]
    · simp only [ProfReg.step]
      rw [if_neg hv]
      rw [hu]
      cases hreg : registeredNow uri hist <;>
        simp [aux_pf_expected, registeredNow, registersUri, lastSetting, givesStart, givesExt, givesClose,
          givesReceived, givesMime, givesEncoding, givesAuto, hv, hreg]
  | setGlobal g =>
    show r.find uri = _
    rw [hu]
    cases hreg : registeredNow uri hist <;>
      simp [aux_pf_expected, registeredNow, registersUri, lastSetting, givesStart, givesExt, givesClose,
        givesReceived, givesMime, givesEncoding, givesAuto, hreg]

theorem aux_pf_run (hist : List ProfOp) : ∀ uri, (ProfReg.init.run hist.reverse).find uri = aux_pf_expected uri hist := by
  induction hist with
  | nil => intro uri; rfl
  | cons op hist ih =>
    intro uri
    rw [List.reverse_cons, ProfReg.run, List.foldl_append]
    exact aux_pf_step _ hist uri op ih

theorem aux_pf_global (hist : List ProfOp) : (ProfReg.init.run hist.reverse).global = globalNow hist := by
  induction hist with
  | nil => rfl
  | cons op hist ih =>
    rw [List.reverse_cons, ProfReg.run, List.foldl_append]
    show (ProfReg.step (ProfReg.init.run hist.reverse) op).1.global = _
    cases op <;> simp only [ProfReg.step, globalNow] <;> (repeat' split) <;> first | exact ih | rfl

/-- After every history the handlers called, and what the other functions tell, are those set last. Missing:
`vortex_profiles_is_defined_received`. -/
theorem C76_handlers_partial (ops : List ProfOp) (uri : Nat) : let r := ProfReg.init.run ops; let hist := ops.reverse
    r.isRegistered uri = registeredNow uri hist ∧
    r.startWho uri = startExpected uri hist ∧
    r.closeWho uri = (if registeredNow uri hist then some (orNull (lastSetting uri (givesClose uri) hist)) else none) ∧
    r.receivedWho uri = orNull (lastSetting uri (givesReceived uri) hist) ∧
    r.mimeOf uri = (if registeredNow uri hist then some (lastSetting uri (givesMime uri) hist, lastSetting uri (givesEncoding uri) hist) else none) ∧
    r.autoOf uri = (lastSetting uri (givesAuto uri) hist).getD 0 := by
  intro r hist
  have hf : r.find uri = aux_pf_expected uri hist := by
    have := aux_pf_run hist uri
    simpa [hist, r] using this
  have hg : r.global = globalNow hist := by
    have := aux_pf_global hist
    simpa [hist, r] using this
  cases hreg : registeredNow uri hist with
  | false =>
    simp only [aux_pf_expected, hreg, Bool.false_eq_true, if_false] at hf
    simp [ProfReg.isRegistered, ProfReg.startWho, ProfReg.closeWho, ProfReg.receivedWho, ProfReg.mimeOf, ProfReg.autoOf, hf, startExpected, hreg,
      aux_pf_unregistered uri _ hist hreg, orNull]
  | true =>
    simp only [aux_pf_expected, hreg, if_true] at hf
    simp only [ProfReg.isRegistered, ProfReg.startWho, ProfReg.closeWho, ProfReg.receivedWho, ProfReg.mimeOf, ProfReg.autoOf, hf, startExpected, hreg,
      Option.isSome_some, if_true, true_and, Bool.true_eq_false, if_false, hg]
    refine ⟨?_, trivial⟩
    cases lastSetting uri (givesExt uri) hist with
    | some x =>
      cases x with
      | some h => rfl
      | none =>
        simp only [orNull]
        cases lastSetting uri (givesStart uri) hist with
        | some y => cases y <;> (cases globalNow hist <;> rfl)
        | none => cases globalNow hist <;> rfl
    | none =>
      simp only [orNull]
      cases lastSetting uri (givesStart uri) hist with
      | some y => cases y <;> (cases globalNow hist <;> rfl)
      | none => cases globalNow hist <;> rfl

/-- The list and the table agree. -/
def aux_pf_wf (q : ProfReg) : Prop :=
  q.list.Nodup ∧ (∀ uri, uri ∈ q.list ↔ (q.find uri).isSome = true) ∧ (q.table.map (·.1)).Nodup ∧ q.table.length = q.list.length

/-- The list announced to peers: each registered profile once, and nothing else. -/
theorem C76_list (ops : List ProfOp) : let r := ProfReg.init.run ops
    r.list.Nodup ∧ (∀ uri, uri ∈ r.list ↔ registeredNow uri ops.reverse = true) ∧ r.table.length = r.list.length := by
  have key : ∀ (hist : List ProfOp), aux_pf_wf (ProfReg.init.run hist.reverse) := by
    intro hist
    induction hist with
    | nil => simp [aux_pf_wf, ProfReg.run, ProfReg.init, ProfReg.find]
    | cons op hist ih =>
      rw [List.reverse_cons, ProfReg.run, List.foldl_append]
      show aux_pf_wf ((ProfReg.init.run hist.reverse).step op).1
      generalize ProfReg.init.run hist.reverse = r at ih
      obtain ⟨h1, h2, h3, h4⟩ := ih
      have hcreate : ∀ u p, r.find u = none → aux_pf_wf (r.create u p) := by
        intro u p hn
        have hnm : u ∉ r.list := by rw [h2, hn]; simp
        have hnt : ∀ e ∈ r.table, e.1 ≠ u := by
          intro e he heq
          have : r.table.lookup u ≠ none := by
            rw [ne_eq, List.lookup_eq_none_iff]
            intro hall
            have := hall e he
            simp [heq] at this
          exact this hn
        have hfilt : r.table.filter (·.1 ≠ u) = r.table := List.filter_eq_self.2 (by intro e he; simpa using hnt e he)
        refine ⟨?_, ?_, ?_, ?_⟩
        · simp only [ProfReg.create]
          rw [List.nodup_append]
          exact ⟨h1, by simp, by intro a ha b hb; simp at hb; subst hb; intro e; subst e; exact hnm ha⟩
        · intro uri
          rw [aux_pf_find_create]
          simp only [ProfReg.create, List.mem_append, List.mem_singleton, h2]
          by_cases hu : uri = u <;> simp [hu]
        · simp only [ProfReg.create, hfilt, List.map_cons, List.nodup_cons]
          refine ⟨?_, h3⟩
          intro hm
          obtain ⟨e, he, heq⟩ := List.mem_map.1 hm
          exact hnt e he heq
        · simp only [ProfReg.create, hfilt, List.length_cons, List.length_append, h4, List.length_nil]
      have hmodify : ∀ u f, aux_pf_wf (r.modify u f) := by
        intro u f
        refine ⟨h1, ?_, ?_, ?_⟩
        · intro uri
          rw [aux_pf_find_modify]
          simp only [ProfReg.modify, h2]
          by_cases hu : uri = u <;> simp [hu]
        · have : (r.modify u f).table.map (·.1) = r.table.map (·.1) := by
            simp only [ProfReg.modify, List.map_map]
            apply List.map_congr_left
            intro e _
            simp only [Function.comp]
            split <;> rfl
          rw [this]; exact h3
        · simp [ProfReg.modify, h4]
      cases op with
      | register u s c v => simp only [ProfReg.step]; split; · exact hcreate _ _ (by assumption)
                            · exact hmodify _ _
      | registerExt u e => simp only [ProfReg.step]; split; · exact hcreate _ _ (by assumption)
                           · exact hmodify _ _
      | setReceived u v => simp only [ProfReg.step]; split; · exact ⟨h1, h2, h3, h4⟩
                           · exact hmodify _ _
      | setMime u m t => simp only [ProfReg.step]; split; · exact ⟨h1, h2, h3, h4⟩
                         · exact hmodify _ _
      | setAuto u v => simp only [ProfReg.step]; repeat' split
                       · exact ⟨h1, h2, h3, h4⟩
                       · exact hmodify _ _
                       · exact ⟨h1, h2, h3, h4⟩
      | setGlobal g => exact ⟨h1, h2, h3, h4⟩
      | unregister u =>
        simp only [ProfReg.step]
        split
        · exact ⟨h1, h2, h3, h4⟩
        · next p hp =>
          refine ⟨h1.erase _, ?_, ?_, ?_⟩
          · intro uri
            rw [h1.mem_erase_iff, h2]
            simp only [ProfReg.find, aux_pf_lookup_filter]
            by_cases hu : uri = u <;> simp [hu]
          · exact h3.sublist ((List.filter_sublist).map _)
          · have hmem : u ∈ r.list := by rw [h2, hp]; rfl
            have hlen : ∀ (l : List (Nat × ProfSettings)), (l.map (·.1)).Nodup → (l.lookup u).isSome = true →
                (l.filter (·.1 ≠ u)).length + 1 = l.length := by
              intro l
              induction l with
              | nil => intro _ hs; simp at hs
              | cons e l ihl =>
                obtain ⟨k, q⟩ := e
                intro hnd hs
                rw [List.map_cons, List.nodup_cons] at hnd
                rw [List.filter_cons]
                by_cases hk : k = u
                · subst hk
                  have : l.filter (·.1 ≠ k) = l := List.filter_eq_self.2 (by
                    intro e he
                    have : e.1 ≠ k := fun heq => hnd.1 (List.mem_map.2 ⟨e, he, heq⟩)
                    simpa using this)
                  simp only [ne_eq, not_true, decide_false, Bool.false_eq_true, if_false, List.length_cons]
                  exact congrArg (·.length + 1) this
                · have hs' : (l.lookup u).isSome = true := by
                    rw [List.lookup_cons] at hs
                    have : (u == k) = false := by simp; exact fun e => hk e.symm
                    rw [this] at hs; exact hs
                  have := ihl hnd.2 hs'
                  simp only [ne_eq, hk, not_false_eq_true, decide_true, if_true, List.length_cons]
                  exact congrArg (· + 1) this
            have := hlen r.table h3 (by rw [show r.table.lookup u = some p from hp]; rfl)
            rw [List.length_erase_of_mem hmem]
            simp only at this ⊢
            omega
  intro r
  have hk := key ops.reverse
  rw [List.reverse_reverse] at hk
  obtain ⟨h1, h2, _, h4⟩ := hk
  refine ⟨h1, fun uri => ?_, h4⟩
  rw [h2, ← (C76_handlers_partial ops uri).1]; rfl

/-- A history: registration, a second one that changes the handlers but not the extended one, another profile, MIME settings. -/
example : let r := ProfReg.init.run [.setGlobal (some (9, 9)), .setReceived 1 (some (7, 7)), .register 1 none none none, .registerExt 2 none,
      .setMime 1 (some 5) none, .registerExt 1 (some (3, 30)), .register 1 (some (4, 40)) none (some (6, 60)), .setAuto 1 2]
    r.list = [1, 2] ∧ r.startWho 1 = .extended (3, 30) ∧ r.startWho 2 = .global (9, 9) ∧ r.receivedWho 1 = some (6, 60) ∧
    r.mimeOf 1 = some (some 5, none) ∧ r.autoOf 1 = 2 ∧ (r.step (.unregister 1)).1.startWho 1 = .refused := by decide

/-- `vortex_profiles_is_defined_received` tells about registration only. -/
theorem C76_defined_received (ops : List ProfOp) (uri : Nat) :
    (ProfReg.init.run ops).definedReceived uri = registeredNow uri ops.reverse ∧
    (ProfReg.init.run [.register uri none none none]).definedReceived uri = true ∧
    (ProfReg.init.run [.register uri none none none]).receivedWho uri = none := by
  refine ⟨?_, ?_, ?_⟩
  · rw [← (C76_handlers_partial ops uri).1]
    simp only [ProfReg.definedReceived, ProfReg.isRegistered]
    split <;> simp [*]
  · simp [ProfReg.run, ProfReg.step, ProfReg.init, ProfReg.find, ProfReg.definedReceived, ProfReg.create]
  · simp [ProfReg.run, ProfReg.step, ProfReg.init, ProfReg.find, ProfReg.receivedWho, ProfReg.create, ProfSettings.new]

theorem C76_statement_false : ¬ C76_statement := by
  intro h
  have := (h [.register 1 none none none] 1).2.2.2.2.2.2
  revert this; decide

/-! ## C77 -/

/-- C77, full: in every schedule no released record is used, every handler is called with the data that was registered with it, and
when the profile is not registered and nobody uses it everything is released. False of the code. -/
def C77_statement : Prop :=
  ∀ acts, ∃ s l, ProfLife.init.run acts = some (s, l) ∧ (∀ e ∈ l, ∃ i, .register i e.1 e.2 ∈ acts) ∧
    (s.current = none → (∀ i, s.pc i = .out) → ∀ k, (s.recs k).refs = 0)

/-- References are counted exactly. -/
def aux_pf_counted (s : ProfLife) : Prop :=
  (∀ k, ∃ L : List Nat, L.Nodup ∧ (∀ i, i ∈ L ↔ holdsRec (s.pc i) = some k) ∧
    (s.recs k).refs = (s.current == some k).toNat + L.length) ∧
  (∀ k, s.next ≤ k → s.current ≠ some k ∧ ∀ i, holdsRec (s.pc i) ≠ some k)

/-- A thread goes to a place that holds no other record than before. -/
theorem aux_pf_counted_at (s : ProfLife) (i : Nat) (pc : ProfPc) (f : ProfRec → ProfRec) (k0 : Nat) (hf : (f (s.recs k0)).refs = (s.recs k0).refs)
    (hpc : holdsRec pc = holdsRec (s.pc i)) (h : aux_pf_counted s) : aux_pf_counted ((s.put k0 (f (s.recs k0))).at i pc) := by
  have hh : ∀ j, holdsRec (((s.put k0 (f (s.recs k0))).at i pc).pc j) = holdsRec (s.pc j) := by
    intro j
    simp only [ProfLife.at, ProfLife.put]
    split
    · next e => subst e; exact hpc
    · rfl
  refine ⟨fun k => ?_, fun k hk => ?_⟩
  · obtain ⟨L, h1, h2, h3⟩ := h.1 k
    refine ⟨L, h1, fun j => by rw [hh]; exact h2 j, ?_⟩
    simp only [ProfLife.at, ProfLife.put]
    split
    · next e => subst e; rw [hf]; exact h3
    · exact h3
  · exact ⟨(h.2 k hk).1, fun j => by rw [hh]; exact (h.2 k hk).2 j⟩

theorem aux_pf_counted_step (s : ProfLife) (a : ProfAct) (r : ProfLife × List (Nat × Nat)) (h : aux_pf_counted s)
    (hr : s.step a = some r) : aux_pf_counted r.1 := by
  cases a with
  | register i fn data =>
    simp only [ProfLife.step] at hr
    cases hpc : s.pc i <;> rw [hpc] at hr <;> simp only [Option.some.injEq] at hr
    case out =>
      cases hc : s.current with
      | none =>
        rw [hc] at hr; simp only [Option.some.injEq] at hr; subst hr
        refine ⟨fun k => ?_, fun k hk => ?_⟩
        · obtain ⟨L, h1, h2, h3⟩ := h.1 k
          by_cases hk : k = s.next
          · subst hk
            refine ⟨[], List.nodup_nil, fun j => ?_, ?_⟩
            · have := (h.2 s.next (Nat.le_refl _)).2 j
              simp only [List.not_mem_nil, false_iff]; exact this
            · simp [ProfLife.put]
          · refine ⟨L, h1, h2, ?_⟩
            simp only [ProfLife.put, hk, if_false, h3, hc]
            have : (some s.next == some k) = false := by simp; exact fun e => hk e.symm
            rw [this]; rfl
        · simp only [ProfLife.put] at hk ⊢
          refine ⟨?_, (h.2 k (by omega)).2⟩
          intro e; injection e with e; omega
      | some k0 =>
        rw [hc] at hr; simp only [Option.some.injEq] at hr; subst hr
        have := aux_pf_counted_at s i (.update k0 fn data) id k0 rfl (by rw [hpc]; rfl) h
        have he : s.put k0 (id (s.recs k0)) = s := by
          simp only [ProfLife.put, id]
          congr 1
          funext j; split
          · next e => rw [e]
          · rfl
        rw [he] at this; exact this
    all_goals (subst hr; exact h)
  | unregister =>
    simp only [ProfLife.step] at hr
    cases hc : s.current with
    | none => rw [hc] at hr; simp only [Option.some.injEq] at hr; subst hr; exact h
    | some k0 =>
      rw [hc] at hr; simp only [Option.some.injEq] at hr; subst hr
      refine ⟨fun k => ?_, fun k hk => ?_⟩
      · obtain ⟨L, h1, h2, h3⟩ := h.1 k
        refine ⟨L, h1, h2, ?_⟩
        simp only [ProfLife.put]
        by_cases hk : k = k0
        · subst hk; rw [hc] at h3; simp [ProfRec.unref, h3]
        · simp only [hk, if_false]
          rw [h3, hc]
          have : (some k0 == some k) = false := by simp; exact fun e => hk e.symm
          rw [this]; rfl
      · exact ⟨by simp [ProfLife.put], (h.2 k hk).2⟩
  | start i =>
    simp only [ProfLife.step] at hr
    cases hpc : s.pc i <;> rw [hpc] at hr <;> simp only [Option.some.injEq] at hr
    case out =>
      cases hc : s.current with
      | none => rw [hc] at hr; simp only [Option.some.injEq] at hr; subst hr; exact h
      | some k0 =>
        rw [hc] at hr; simp only [Option.some.injEq] at hr; subst hr
        have hlt : k0 < s.next := Nat.lt_of_not_le fun hle => (h.2 k0 hle).1 hc
        refine ⟨fun k => ?_, fun k hk => ?_⟩
        · obtain ⟨L, h1, h2, h3⟩ := h.1 k
          have hni : i ∉ L := by rw [h2, hpc]; simp [holdsRec]
          by_cases hk : k = k0
          · subst hk
            refine ⟨i :: L, List.nodup_cons.2 ⟨hni, h1⟩, fun j => ?_, ?_⟩
            · simp only [List.mem_cons, ProfLife.at, ProfLife.put]
              by_cases hj : j = i
              · simp [hj, holdsRec]
              · simp only [hj, false_or, if_false]; exact h2 j
            · simp only [ProfLife.at, ProfLife.put, if_true, List.length_cons, h3]; omega
          · refine ⟨L, h1, fun j => ?_, ?_⟩
            · simp only [ProfLife.at, ProfLife.put]
              by_cases hj : j = i
              · subst hj
                simp only [if_true, holdsRec]
                refine ⟨fun hm => absurd hm hni, fun e => ?_⟩
                injection e with e; exact absurd e.symm hk
              · simp only [hj, if_false]; exact h2 j
            · simp only [ProfLife.at, ProfLife.put, hk, if_false]; exact h3
        · refine ⟨(h.2 k hk).1, fun j => ?_⟩
          simp only [ProfLife.at, ProfLife.put] at hk ⊢
          split
          · intro e; simp only [holdsRec] at e; injection e with e; omega
          · exact (h.2 k hk).2 j
    all_goals (subst hr; exact h)
  | go i =>
    simp only [ProfLife.step] at hr
    cases hpc : s.pc i with
    | out => rw [hpc] at hr; simp only [Option.some.injEq] at hr; subst hr; exact h
    | update k0 fn data =>
      rw [hpc] at hr; simp only at hr; split at hr
      · exact absurd hr (by simp)
      · simp only [Option.some.injEq] at hr; subst hr
        exact aux_pf_counted_at s i _ (fun x => { x with fn := fn }) k0 rfl (by rw [hpc]; rfl) h
    | updateData k0 data =>
      rw [hpc] at hr; simp only at hr; split at hr
      · exact absurd hr (by simp)
      · simp only [Option.some.injEq] at hr; subst hr
        exact aux_pf_counted_at s i _ (fun x => { x with data := data }) k0 rfl (by rw [hpc]; rfl) h
    | holds k0 fn =>
      rw [hpc] at hr; simp only at hr; split at hr
      · exact absurd hr (by simp)
      · simp only [Option.some.injEq] at hr; subst hr
        have := aux_pf_counted_at s i (.calls k0) id k0 rfl (by rw [hpc]; rfl) h
        have he : s.put k0 (id (s.recs k0)) = s := by
          simp only [ProfLife.put, id]
          congr 1
          funext j; split
          · next e => rw [e]
          · rfl
        rw [he] at this; exact this
    | calls k0 =>
      rw [hpc] at hr; simp only at hr; split at hr
      · exact absurd hr (by simp)
      · simp only [Option.some.injEq] at hr; subst hr
        refine ⟨fun k => ?_, fun k hk => ?_⟩
        · obtain ⟨L, h1, h2, h3⟩ := h.1 k
          by_cases hk : k = k0
          · subst hk
            have hm : i ∈ L := by rw [h2, hpc]; rfl
            refine ⟨L.erase i, h1.erase _, fun j => ?_, ?_⟩
            · rw [h1.mem_erase_iff]
              simp only [ProfLife.at, ProfLife.put]
              by_cases hj : j = i
              · simp [hj, holdsRec]
              · simp only [ne_eq, hj, not_false_eq_true, true_and, if_false]; exact h2 j
            · have : 0 < L.length := List.length_pos_of_mem hm
              simp only [ProfLife.at, ProfLife.put, if_true, ProfRec.unref, List.length_erase_of_mem hm, h3]; omega
          · refine ⟨L, h1, fun j => ?_, ?_⟩
            · simp only [ProfLife.at, ProfLife.put]
              by_cases hj : j = i
              · subst hj
                simp only [if_true, holdsRec]
                rw [h2, hpc]
                simp only [holdsRec, Option.some.injEq]
                constructor
                · intro e; exact absurd e.symm hk
                · intro e; exact absurd e (by simp)
              · simp only [hj, if_false]; exact h2 j
            · simp only [ProfLife.at, ProfLife.put, hk, if_false]; exact h3
        · refine ⟨(h.2 k hk).1, fun j => ?_⟩
          simp only [ProfLife.at, ProfLife.put] at hk ⊢
          split
          · simp [holdsRec]
          · exact (h.2 k hk).2 j

theorem aux_pf_counted_run (acts : List ProfAct) : ∀ (s : ProfLife) (r : ProfLife × List (Nat × Nat)), aux_pf_counted s → s.run acts = some r →
    aux_pf_counted r.1 := by
  induction acts with
  | nil => intro s r h hr; simp only [ProfLife.run, Option.some.injEq] at hr; subst hr; exact h
  | cons a acts ih =>
    intro s r h hr
    simp only [ProfLife.run] at hr
    cases hs : s.step a with
    | none => rw [hs] at hr; simp at hr
    | some q =>
      rw [hs] at hr; simp only at hr
      cases hq : q.1.run acts with
      | none => rw [hq] at hr; simp at hr
      | some t =>
        rw [hq] at hr; simp only [Option.some.injEq] at hr; subst hr
        exact ih q.1 t (aux_pf_counted_step s a q h hs) hq

theorem aux_pf_counted_init : aux_pf_counted ProfLife.init :=
  ⟨fun _ => ⟨[], List.nodup_nil, fun _ => by simp [ProfLife.init, holdsRec], by simp [ProfLife.init]⟩,
    fun _ _ => by simp [ProfLife.init, holdsRec]⟩

/-- As long as no released record is used: the record in the table, and one whose handler is called, is not released; a record that is
not in the table and that nobody uses is released. -/
theorem C77_released (acts : List ProfAct) (s : ProfLife) (l : List (Nat × Nat)) (h : ProfLife.init.run acts = some (s, l)) (k : Nat) :
    (s.recs k).refs = 0 ↔ s.current ≠ some k ∧ ∀ i, holdsRec (s.pc i) ≠ some k := by
  obtain ⟨L, h1, h2, h3⟩ := (aux_pf_counted_run acts _ _ aux_pf_counted_init h).1 k
  dsimp only at h2 h3
  constructor
  · intro h0
    rw [h0] at h3
    have hb : (s.current == some k).toNat = 0 := by omega
    have hl : L = [] := List.length_eq_zero_iff.1 (by omega)
    refine ⟨?_, fun i e => ?_⟩
    · intro e; rw [e] at hb; simp at hb
    · have := (h2 i).2 e; rw [hl] at this; simp at this
  · rintro ⟨hc, hn⟩
    have hl : L = [] := List.eq_nil_iff_forall_not_mem.2 fun i hi => hn i ((h2 i).1 hi)
    have hb : (s.current == some k) = false := by simpa using hc
    rw [h3, hl, hb]; rfl

/-- Threads that change a record have the one in the table. -/
def aux_pf_upd (s : ProfLife) : Prop :=
  ∀ i, (∀ k fn data, s.pc i = .update k fn data → s.current = some k) ∧ (∀ k data, s.pc i = .updateData k data → s.current = some k)

/-- A profile that is not unregistered while a thread registers it again is never used after its release, and is released when it is
not registered and nobody uses it. Missing: that race. -/
theorem C77_safe_partial (acts : List ProfAct) (ho : orderlyProf ProfLife.init acts) :
    ∃ s l, ProfLife.init.run acts = some (s, l) ∧ (s.current = none → (∀ i, s.pc i = .out) → ∀ k, (s.recs k).refs = 0) := by
  have key : ∀ (acts : List ProfAct) (s : ProfLife), orderlyProf s acts → aux_pf_counted s → aux_pf_upd s → ∃ r, s.run acts = some r := by
    intro acts
    induction acts with
    | nil => intro s _ _ _; exact ⟨(s, []), rfl⟩
    | cons a acts ih =>
      intro s ho hc hu
      have hpos : ∀ k, s.current = some k → (s.recs k).refs ≠ 0 := by
        intro k hk; obtain ⟨L, _, _, h3⟩ := hc.1 k; rw [h3, hk]; simp
      have hpos2 : ∀ i k, holdsRec (s.pc i) = some k → (s.recs k).refs ≠ 0 := by
        intro i k hk; obtain ⟨L, _, h2, h3⟩ := hc.1 k
        have := List.length_pos_of_mem ((h2 i).2 hk); omega
      have hstep : ∃ r, s.step a = some r ∧ aux_pf_upd r.1 := by
        cases a with
        | register i fn data =>
          simp only [ProfLife.step]
          cases hpc : s.pc i
          case out =>
            cases hcur : s.current with
            | none =>
              refine ⟨_, rfl, fun j => ⟨fun k f d e => ?_, fun k d e => ?_⟩⟩
              · exact absurd ((hu j).1 k f d e) (by rw [hcur]; simp)
              · exact absurd ((hu j).2 k d e) (by rw [hcur]; simp)
            | some k0 =>
              refine ⟨_, rfl, fun j => ⟨fun k f d e => ?_, fun k d e => ?_⟩⟩
              · simp only [ProfLife.at] at e ⊢
                split at e
                · injection e with e1; rw [← e1]; exact hcur
                · exact (hu j).1 k f d e
              · simp only [ProfLife.at] at e ⊢
                split at e
                · exact absurd e (by simp)
                · exact (hu j).2 k d e
          all_goals exact ⟨_, rfl, hu⟩
        | unregister =>
          simp only [ProfLife.step]
          cases hcur : s.current with
          | none => exact ⟨_, rfl, hu⟩
          | some k0 =>
            have hno := ho.1 rfl
            refine ⟨_, rfl, fun j => ⟨fun k f d e => ?_, fun k d e => ?_⟩⟩
            · have := hno j; simp only [ProfLife.put] at e; rw [e] at this; simp [updatesRec] at this
            · have := hno j; simp only [ProfLife.put] at e; rw [e] at this; simp [updatesRec] at this
        | start i =>
          simp only [ProfLife.step]
          cases hpc : s.pc i
          case out =>
            cases hcur : s.current with
            | none => exact ⟨_, rfl, hu⟩
            | some k0 =>
              refine ⟨_, rfl, fun j => ⟨fun k f d e => ?_, fun k d e => ?_⟩⟩
              · simp only [ProfLife.at, ProfLife.put] at e ⊢
                split at e
                · exact absurd e (by simp)
                · exact (hu j).1 k f d e
              · simp only [ProfLife.at, ProfLife.put] at e ⊢
                split at e
                · exact absurd e (by simp)
                · exact (hu j).2 k d e
          all_goals exact ⟨_, rfl, hu⟩
        | go i =>
          simp only [ProfLife.step]
          cases hpc : s.pc i with
          | out => exact ⟨_, rfl, hu⟩
          | update k0 fn data =>
            have hcur := (hu i).1 _ _ _ hpc
            simp only [hpos k0 hcur, if_false]
            refine ⟨_, rfl, fun j => ⟨fun k f d e => ?_, fun k d e => ?_⟩⟩
            · simp only [ProfLife.at, ProfLife.put] at e ⊢
              split at e
              · exact absurd e (by simp)
              · exact (hu j).1 k f d e
            · simp only [ProfLife.at, ProfLife.put] at e ⊢
              split at e
              · injection e with e1; rw [← e1]; exact hcur
              · exact (hu j).2 k d e
          | updateData k0 data =>
            have hcur := (hu i).2 _ _ hpc
            simp only [hpos k0 hcur, if_false]
            refine ⟨_, rfl, fun j => ⟨fun k f d e => ?_, fun k d e => ?_⟩⟩
            · simp only [ProfLife.at, ProfLife.put] at e ⊢
              split at e
              · exact absurd e (by simp)
              · exact (hu j).1 k f d e
            · simp only [ProfLife.at, ProfLife.put] at e ⊢
              split at e
              · exact absurd e (by simp)
              · exact (hu j).2 k d e
          | holds k0 fn =>
            simp only [hpos2 i k0 (by rw [hpc]; rfl), if_false]
            refine ⟨_, rfl, fun j => ⟨fun k f d e => ?_, fun k d e => ?_⟩⟩
            · simp only [ProfLife.at] at e ⊢
              split at e
              · exact absurd e (by simp)
              · exact (hu j).1 k f d e
            · simp only [ProfLife.at] at e ⊢
              split at e
              · exact absurd e (by simp)
              · exact (hu j).2 k d e
          | calls k0 =>
            simp only [hpos2 i k0 (by rw [hpc]; rfl), if_false]
            refine ⟨_, rfl, fun j => ⟨fun k f d e => ?_, fun k d e => ?_⟩⟩
            · simp only [ProfLife.at, ProfLife.put] at e ⊢
              split at e
              · exact absurd e (by simp)
              · exact (hu j).1 k f d e
            · simp only [ProfLife.at, ProfLife.put] at e ⊢
              split at e
              · exact absurd e (by simp)
              · exact (hu j).2 k d e
      obtain ⟨r, hr, hur⟩ := hstep
      obtain ⟨q, hq⟩ := ih r.1 (ho.2 r hr) (aux_pf_counted_step s a r hc hr) hur
      exact ⟨(q.1, r.2 ++ q.2), by simp only [ProfLife.run, hr, hq]⟩
  obtain ⟨⟨s, l⟩, hr⟩ := key acts _ ho aux_pf_counted_init (fun i => by simp [ProfLife.init])
  refine ⟨s, l, hr, fun hc hi k => ?_⟩
  rw [C77_released acts s l hr k]
  exact ⟨by rw [hc]; simp, fun i => by rw [hi i]; simp [holdsRec]⟩

/-- Records hold what was registered, and so do threads that are about to call a handler. -/
def aux_pf_pairs (past : List ProfAct) (s : ProfLife) : Prop :=
  (∀ k, k < s.next → ∃ i, .register i (s.recs k).fn (s.recs k).data ∈ past) ∧
  (∀ i k fn, s.pc i = .holds k fn → k < s.next ∧ fn = (s.recs k).fn) ∧
  (∀ i, updatesRec (s.pc i) = false) ∧ (∀ k, s.current = some k → k < s.next)

/-- If the profile is only registered while it is not, every handler is called with the data registered with it. Missing: changing
the handlers of a registered profile. -/
theorem C77_pairs_partial (acts : List ProfAct) (hf : freshProf ProfLife.init acts) (s : ProfLife) (l : List (Nat × Nat))
    (h : ProfLife.init.run acts = some (s, l)) : ∀ e ∈ l, ∃ i, .register i e.1 e.2 ∈ acts := by
  have key : ∀ (acts past : List ProfAct) (s : ProfLife) (r : ProfLife × List (Nat × Nat)), freshProf s acts → aux_pf_pairs past s →
      s.run acts = some r → ∀ e ∈ r.2, ∃ i, .register i e.1 e.2 ∈ past ++ acts := by
    intro acts
    induction acts with
    | nil => intro past s r _ _ hr; simp only [ProfLife.run, Option.some.injEq] at hr; subst hr; simp
    | cons a acts ih =>
      intro past s r hf hp hr
      simp only [ProfLife.run] at hr
      cases hs : s.step a with
      | none => rw [hs] at hr; simp at hr
      | some q =>
        rw [hs] at hr; simp only at hr
        cases hq : q.1.run acts with
        | none => rw [hq] at hr; simp at hr
        | some t =>
          rw [hq] at hr; simp only [Option.some.injEq] at hr; subst hr
          obtain ⟨p1, p2, p3, p4⟩ := hp
          have hmono : ∀ {i f d}, ProfAct.register i f d ∈ past → ProfAct.register i f d ∈ past ++ [a] := fun hm => List.mem_append_left _ hm
          have hstep : aux_pf_pairs (past ++ [a]) q.1 ∧ ∀ e ∈ q.2, ∃ i, .register i e.1 e.2 ∈ past := by
            have hsame : q.1.recs = s.recs → q.1.next = s.next → q.1.current = s.current ∨ q.1.current = none →
                (∀ i k fn, q.1.pc i = .holds k fn → s.pc i = .holds k fn ∨ (k < s.next ∧ fn = (s.recs k).fn)) →
                (∀ i, updatesRec (q.1.pc i) = false) → aux_pf_pairs (past ++ [a]) q.1 := by
              intro e1 e2 e3 e4 e5
              refine ⟨?_, ?_, e5, ?_⟩
              · intro k hk; rw [e2] at hk; rw [e1]; obtain ⟨i, hi⟩ := p1 k hk; exact ⟨i, hmono hi⟩
              · intro i k fn hh
                rw [e1, e2]
                rcases e4 i k fn hh with h' | h'
                · exact p2 i k fn h'
                · exact h'
              · intro k hk; rw [e2]
                rcases e3 with e3 | e3
                · rw [e3] at hk; exact p4 k hk
                · rw [e3] at hk; simp at hk
            cases a with
            | register i fn data =>
              have hcur := hf.1 i fn data rfl
              simp only [ProfLife.step, hcur] at hs
              cases hpc : s.pc i <;> rw [hpc] at hs <;> simp only [Option.some.injEq] at hs
              case out =>
                subst hs
                refine ⟨⟨?_, ?_, p3, ?_⟩, by simp⟩
                · intro k hk
                  simp only [ProfLife.put] at hk ⊢
                  by_cases hkn : k = s.next
                  · subst hkn; simp only [if_true]; exact ⟨i, by simp⟩
                  · simp only [hkn, if_false]; obtain ⟨j, hj⟩ := p1 k (by omega); exact ⟨j, hmono hj⟩
                · intro j k f hh
                  obtain ⟨h1, h2⟩ := p2 j k f hh
                  simp only [ProfLife.put]
                  refine ⟨by omega, ?_⟩
                  rw [if_neg (by omega)]; exact h2
                · intro k hk; simp only [ProfLife.put, Option.some.injEq] at hk ⊢; omega
              all_goals (subst hs; exact ⟨hsame rfl rfl (Or.inl rfl) (fun _ _ _ hh => Or.inl hh) p3, by simp⟩)
            | unregister =>
              simp only [ProfLife.step] at hs
              cases hcur : s.current with
              | none => rw [hcur] at hs; simp only [Option.some.injEq] at hs; subst hs
                        exact ⟨hsame rfl rfl (Or.inl rfl) (fun _ _ _ hh => Or.inl hh) p3, by simp⟩
              | some k0 =>
                rw [hcur] at hs; simp only [Option.some.injEq] at hs; subst hs
                refine ⟨⟨?_, ?_, p3, ?_⟩, by simp⟩
                · intro k hk; obtain ⟨j, hj⟩ := p1 k hk
                  refine ⟨j, hmono ?_⟩
                  simp only [ProfLife.put]; split
                  · next e => subst e; exact hj
                  · exact hj
                · intro j k f hh
                  obtain ⟨h1, h2⟩ := p2 j k f hh
                  refine ⟨h1, ?_⟩
                  simp only [ProfLife.put]; split
                  · next e => subst e; exact h2
                  · exact h2
                · intro k hk; simp [ProfLife.put] at hk
            | start i =>
              simp only [ProfLife.step] at hs
              cases hpc : s.pc i <;> rw [hpc] at hs <;> simp only [Option.some.injEq] at hs
              case out =>
                cases hcur : s.current with
                | none => rw [hcur] at hs; simp only [Option.some.injEq] at hs; subst hs
                          exact ⟨hsame rfl rfl (Or.inl rfl) (fun _ _ _ hh => Or.inl hh) p3, by simp⟩
                | some k0 =>
                  rw [hcur] at hs; simp only [Option.some.injEq] at hs; subst hs
                  have hk0 := p4 k0 hcur
                  refine ⟨⟨?_, ?_, ?_, ?_⟩, by simp⟩
                  · intro k hk; obtain ⟨j, hj⟩ := p1 k hk
                    refine ⟨j, hmono ?_⟩
                    simp only [ProfLife.at, ProfLife.put]; split
                    · next e => subst e; exact hj
                    · exact hj
                  · intro j k f hh
                    have hfn : ∀ x, ((ProfLife.at (s.put k0 { s.recs k0 with refs := (s.recs k0).refs + 1 }) i (.holds k0 (s.recs k0).fn)).recs x).fn = (s.recs x).fn := by
                      intro x; simp only [ProfLife.at, ProfLife.put]; split
                      · next e => rw [e]
                      · rfl
                    dsimp only at hh ⊢
                    rw [hfn]
                    simp only [ProfLife.at, ProfLife.put] at hh ⊢
                    split at hh
                    · injection hh with e1 e2; subst e1; exact ⟨hk0, e2.symm⟩
                    · exact p2 j k f hh
                  · intro j; simp only [ProfLife.at, ProfLife.put]; split
                    · rfl
                    · exact p3 j
                  · intro k hk; exact p4 k hk
              all_goals (subst hs; exact ⟨hsame rfl rfl (Or.inl rfl) (fun _ _ _ hh => Or.inl hh) p3, by simp⟩)
            | go i =>
              have hpi := p3 i
              simp only [ProfLife.step] at hs
              cases hpc : s.pc i with
              | out => rw [hpc] at hs; simp only [Option.some.injEq] at hs; subst hs
                       exact ⟨hsame rfl rfl (Or.inl rfl) (fun _ _ _ hh => Or.inl hh) p3, by simp⟩
              | update _ _ _ => rw [hpc] at hpi; simp [updatesRec] at hpi
              | updateData _ _ => rw [hpc] at hpi; simp [updatesRec] at hpi
              | holds k0 fn =>
                rw [hpc] at hs; simp only at hs; split at hs
                · exact absurd hs (by simp)
                · simp only [Option.some.injEq] at hs; subst hs
                  refine ⟨hsame rfl rfl (Or.inl rfl) ?_ ?_, ?_⟩
                  · intro j k f hh
                    simp only [ProfLife.at] at hh; split at hh
                    · exact absurd hh (by simp)
                    · exact Or.inl hh
                  · intro j; simp only [ProfLife.at]; split
                    · rfl
                    · exact p3 j
                  · intro e he
                    simp only [List.mem_singleton] at he; subst he
                    obtain ⟨h1, h2⟩ := p2 i k0 fn hpc
                    obtain ⟨j, hj⟩ := p1 k0 h1
                    exact ⟨j, by rw [h2]; exact hj⟩
              | calls k0 =>
                rw [hpc] at hs; simp only at hs; split at hs
                · exact absurd hs (by simp)
                · simp only [Option.some.injEq] at hs; subst hs
                  refine ⟨⟨?_, ?_, ?_, ?_⟩, by simp⟩
                  · intro k hk; obtain ⟨j, hj⟩ := p1 k hk
                    refine ⟨j, hmono ?_⟩
                    simp only [ProfLife.at, ProfLife.put]; split
                    · next e => subst e; exact hj
                    · exact hj
                  · intro j k f hh
                    have hfn : ∀ x, ((ProfLife.at (s.put k0 (s.recs k0).unref) i .out).recs x).fn = (s.recs x).fn := by
                      intro x; simp only [ProfLife.at, ProfLife.put]; split
                      · next e => rw [e]; rfl
                      · rfl
                    dsimp only at hh ⊢
                    rw [hfn]
                    simp only [ProfLife.at, ProfLife.put] at hh ⊢
                    split at hh
                    · exact absurd hh (by simp)
                    · exact p2 j k f hh
                  · intro j; simp only [ProfLife.at, ProfLife.put]; split
                    · rfl
                    · exact p3 j
                  · intro k hk; exact p4 k hk
          intro e he
          rcases List.mem_append.1 he with he | he
          · obtain ⟨i, hi⟩ := hstep.2 e he; exact ⟨i, List.mem_append_left _ hi⟩
          · obtain ⟨i, hi⟩ := ih (past ++ [a]) q.1 t (hf.2 q hs) hstep.1 hq e he
            exact ⟨i, by simpa using hi⟩
  have := key acts [] ProfLife.init (s, l) hf
    ⟨fun k hk => absurd hk (by simp [ProfLife.init]), fun i k fn e => by simp [ProfLife.init] at e, fun i => rfl, fun k e => by simp [ProfLife.init] at e⟩ h
  simpa using this

/-- Two calls run while the profile is unregistered and registered again with other handlers: each is called as registered. -/
example : freshProf ProfLife.init [.register 0 1 10, .start 1, .unregister, .register 0 2 20, .start 2, .go 2, .go 1, .go 1] ∧
    (ProfLife.init.run [.register 0 1 10, .start 1, .unregister, .register 0 2 20, .start 2, .go 2, .go 1, .go 1]).map Prod.snd =
      some [(2, 20), (1, 10)] := by
  constructor
  · simp [freshProf, ProfLife.step, ProfLife.init, ProfLife.put, ProfLife.at]
  · rfl

/-- The profile is registered again while it is, and unregistered later. -/
example : orderlyProf ProfLife.init [.register 0 1 10, .start 1, .register 0 2 20, .go 0, .go 0, .unregister, .go 1, .go 1] := by
  simp [orderlyProf, ProfLife.step, ProfLife.init, ProfLife.put, ProfLife.at, ProfRec.unref]
  intro i; split <;> (try split) <;> rfl

/-- A thread registers the profile again, another one unregisters it before the first writes the new handlers: a released record is written. -/
theorem C77_released_used : ProfLife.init.run [.register 0 1 10, .register 0 2 20, .unregister, .go 0] = none := rfl

/-- A thread has read the old handler when another one changes handler and data: the old handler gets the new data. -/
theorem C77_wrong_data :
    (ProfLife.init.run [.register 0 1 10, .start 1, .register 0 2 20, .go 0, .go 0, .go 1]).map Prod.snd = some [(1, 20)] := rfl

/-- A thread starts a channel between the writes of the new handler and of its data: the new handler gets the old data. -/
theorem C77_old_data :
    (ProfLife.init.run [.register 0 1 10, .register 0 2 20, .go 0, .start 1, .go 1]).map Prod.snd = some [(2, 10)] := rfl

theorem C77_statement_false : ¬ C77_statement := by
  intro h
  obtain ⟨s, l, hr, _⟩ := h [.register 0 1 10, .register 0 2 20, .unregister, .go 0]
  rw [C77_released_used] at hr
  exact absurd hr (by simp)

end Verif.Props
