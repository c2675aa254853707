import Verif.Spec.LuaHandlers
/-!
# C146 — answers of handlers written in Lua
-/
namespace Verif.Props
open Verif.Model Verif.Spec

theorem aux_lh_run (pre : List LhvOp) (op : LhvOp) :
    lhvRun (pre ++ [op]) = ((lhvStep (lhvRun pre).1 op).1, (lhvRun pre).2 ++ (lhvStep (lhvRun pre).1 op).2) := by
  simp [lhvRun, List.foldl_append]

theorem aux_lh_snoc {P : List LhvOp → Prop} (h0 : P []) (h1 : ∀ l a, P l → P (l ++ [a])) : ∀ l, P l := by
  intro l
  have : ∀ r : List LhvOp, P r.reverse := by
    intro r
    induction r with
    | nil => simpa using h0
    | cons a r ih => simpa using h1 _ a ih
  simpa using this l.reverse

theorem aux_lh_exiting (pre : List LhvOp) : (lhvRun pre).1.exiting = true ↔ .exit ∈ pre := by
  induction pre using aux_lh_snoc with
  | h0 => simp [lhvRun]
  | h1 l a ih =>
    rw [aux_lh_run]
    cases a with
    | exit => simp [lhvStep]
    | call c =>
      by_cases h : (lhvRun l).1.exiting = true <;> simp [lhvStep, h] <;> simp [← ih, h]

theorem aux_lh_take (l : List LhvOp) (a : LhvOp) :
    (l ++ [a]).takeWhile (fun o => o != .exit) =
      if .exit ∈ l then l.takeWhile (fun o => o != .exit) else if a = .exit then l else l ++ [a] := by
  induction l with
  | nil => by_cases h : a = .exit <;> simp [h]
  | cons x l ih =>
    by_cases hx : x = .exit
    · simp [hx]
    · have hx' : ¬ (LhvOp.exit = x) := fun h => hx h.symm
      simp only [List.cons_append, List.takeWhile_cons, ih]
      by_cases hm : .exit ∈ l <;> by_cases ha : a = .exit <;> simp [hx, hx', hm, ha]

theorem aux_lh_takeAll (l : List LhvOp) (h : .exit ∉ l) : l.takeWhile (fun o => o != .exit) = l := by
  induction l with
  | nil => rfl
  | cons x l ih =>
    have hx : ¬ x = .exit := fun e => h (by simp [e])
    simp [hx, ih (fun e => h (by simp [e]))]

theorem aux_lh_leaves (c : LhvCall) : [LhvOp.call c].filterMap (LhvLeaves c.thread) = lhvPushed c.kind c.out := by
  obtain ⟨t, k, o⟩ := c
  cases k <;> cases o <;> simp [LhvLeaves, lhvPushed]

theorem aux_lh_leavesNot (c : LhvCall) (t : Nat) (h : ¬ t = c.thread) : [LhvOp.call c].filterMap (LhvLeaves t) = [] := by
  have h' : ¬ c.thread = t := fun e => h e.symm
  simp [LhvLeaves, h']

theorem aux_lh_leftSnoc (pre : List LhvOp) (c : LhvCall) (h : .exit ∉ pre) :
    LhvLeft c.thread (pre ++ [.call c]) = LhvLeft c.thread pre ++ lhvPushed c.kind c.out := by
  unfold LhvLeft
  rw [aux_lh_take, if_neg h, if_neg (by intro e; cases e), aux_lh_takeAll pre h, List.filterMap_append, aux_lh_leaves]

/-- **C146** (partial): the stack of a thread keeps, in order, every value
returned by a handler that has a result and every error of any handler; after
the context starts to finish no value is added. -/
theorem C146_left_partial (ops : List LhvOp) (t : Nat) : (lhvRun ops).1.stacks t = LhvLeft t ops := by
  induction ops using aux_lh_snoc with
  | h0 => simp [lhvRun, LhvLeft]
  | h1 l a ih =>
    rw [aux_lh_run]
    have hx := aux_lh_exiting l
    by_cases hm : .exit ∈ l
    · have he := hx.2 hm
      have : LhvLeft t (l ++ [a]) = LhvLeft t l := by unfold LhvLeft; rw [aux_lh_take, if_pos hm]
      rw [this, ← ih]
      cases a <;> simp [lhvStep, he]
    · have he : (lhvRun l).1.exiting = false := by
        cases h : (lhvRun l).1.exiting
        · rfl
        · exact absurd (hx.1 h) hm
      cases a with
      | exit =>
        have : LhvLeft t (l ++ [.exit]) = LhvLeft t l := by
          unfold LhvLeft; rw [aux_lh_take, if_neg hm, if_pos rfl, aux_lh_takeAll l hm]
        rw [this, ← ih]; simp [lhvStep]
      | call c =>
        have : LhvLeft t (l ++ [.call c]) = LhvLeft t l ++ [LhvOp.call c].filterMap (LhvLeaves t) := by
          unfold LhvLeft
          rw [aux_lh_take, if_neg hm, if_neg (by intro e; cases e), aux_lh_takeAll l hm, List.filterMap_append]
        rw [this, ← ih]
        by_cases ht : t = c.thread
        · subst ht
          rw [aux_lh_leaves]; simp [lhvStep, he]
        · rw [aux_lh_leavesNot c t ht]; simp [lhvStep, he, ht]

/-- Two events and a failed handler of frames: three values stay. -/
example : (lhvRun [.call ⟨4, .event, .ret (.bool false)⟩, .call ⟨4, .note, .err (.str "nil index")⟩,
    .call ⟨4, .note, .ret .nil⟩, .call ⟨4, .event, .ret (.bool true)⟩, .exit, .call ⟨4, .event, .ret .nil⟩]).1.stacks 4 =
    [.bool false, .str "nil index", .bool true] := by decide +kernel

theorem aux_lh_told (pre : List LhvOp) (c : LhvCall) (a b : LhvAns) (h : LhvTold pre c a) (h' : LhvTold pre c b) : a = b := by
  unfold LhvTold at h h'
  rw [h] at h'
  simpa using h'

theorem aux_lh_toldExit (pre : List LhvOp) (c : LhvCall) (h : .exit ∈ pre) : LhvTold pre c (lhvQuit c.kind) := by
  unfold LhvTold
  rw [aux_lh_run]; simp [lhvStep, (aux_lh_exiting pre).2 h]

theorem aux_lh_toldCall (pre : List LhvOp) (c : LhvCall) (h : .exit ∉ pre) :
    LhvTold pre c (lhvRead c.kind c.out (LhvLeft c.thread pre ++ lhvPushed c.kind c.out)) := by
  unfold LhvTold
  have he : (lhvRun pre).1.exiting = false := by
    cases hh : (lhvRun pre).1.exiting
    · rfl
    · exact absurd ((aux_lh_exiting pre).1 hh) h
  rw [aux_lh_run]; simp [lhvStep, he, C146_left_partial]

/-- Every call is answered, once. -/
theorem C146_total (pre : List LhvOp) (c : LhvCall) : ∃ a, LhvTold pre c a ∧ ∀ b, LhvTold pre c b → b = a := by
  by_cases h : .exit ∈ pre
  · exact ⟨_, aux_lh_toldExit pre c h, fun b hb => aux_lh_told pre c b _ hb (aux_lh_toldExit pre c h)⟩
  · exact ⟨_, aux_lh_toldCall pre c h, fun b hb => aux_lh_told pre c b _ hb (aux_lh_toldCall pre c h)⟩

theorem aux_lh_faithful (pre : List LhvOp) (c : LhvCall) (h : .exit ∉ pre) :
    LhvFaithful pre c ↔ LhvMeant c.kind c.out (lhvRead c.kind c.out (LhvLeft c.thread pre ++ lhvPushed c.kind c.out)) := by
  constructor
  · rintro ⟨a, ha, h1, _⟩
    have := aux_lh_told pre c a _ ha (aux_lh_toldCall pre c h)
    rw [← this]; exact h1 h
  · intro hm
    exact ⟨_, aux_lh_toldCall pre c h, fun _ => hm, fun hh => absurd hh h⟩

/-- **C146** (partial): a context that is finishing refuses everything. -/
theorem C146_finishing_partial (pre : List LhvOp) (c : LhvCall) (h : .exit ∈ pre) : LhvFaithful pre c := by
  refine ⟨_, aux_lh_toldExit pre c h, fun hh => absurd h hh, fun _ => ?_⟩
  cases c.kind <;> constructor

example : LhvFaithful [.call ⟨1, .sasl, .ret (.bool true)⟩, .exit] ⟨1, .sasl, .ret (.bool true)⟩ :=
  C146_finishing_partial _ _ (by decide)

/-- **C146** (partial): requests for channels, authentications and handlers
without result are answered as meant after every history. -/
theorem C146_sound_partial (pre : List LhvOp) (c : LhvCall) (hk : c.kind = .note ∨ c.kind = .start ∨ c.kind = .sasl) :
    LhvFaithful pre c := by
  by_cases h : .exit ∈ pre
  · exact C146_finishing_partial pre c h
  rw [aux_lh_faithful pre c h]
  obtain ⟨t, k, o⟩ := c
  dsimp only at *
  rcases hk with rfl | rfl | rfl
  · exact .note o
  · cases o with
    | err v => exact .startErr v
    | ret v =>
      cases v with
      | nil => simpa [lhvRead, lhvPushed, lhvToBool, lhvSay] using LhvMeant.startNil
      | bool b =>
        cases b
        · simpa [lhvRead, lhvPushed, lhvToBool, lhvSay] using LhvMeant.startNo
        · simpa [lhvRead, lhvPushed, lhvToBool, lhvSay] using LhvMeant.startYes (.bool true) (by simp) (by simp)
      | num x => simpa [lhvRead, lhvPushed, lhvToBool, lhvSay] using LhvMeant.startYes (.num x) (by simp) (by simp)
      | str x => simpa [lhvRead, lhvPushed, lhvToBool, lhvSay] using LhvMeant.startYes (.str x) (by simp) (by simp)
      | other => simpa [lhvRead, lhvPushed, lhvToBool, lhvSay] using LhvMeant.startYes .other (by simp) (by simp)
  · cases o with
    | err v => exact .saslErr v
    | ret v =>
      cases v with
      | nil => simpa [lhvRead, lhvPushed, lhvText] using LhvMeant.saslNil
      | bool b =>
        cases b
        · simpa [lhvRead, lhvPushed, lhvSay] using LhvMeant.saslNo
        · simpa [lhvRead, lhvPushed, lhvSay] using LhvMeant.saslYes
      | num x => simpa [lhvRead, lhvPushed, lhvText] using LhvMeant.saslNum x
      | str x => simpa [lhvRead, lhvPushed, lhvText] using LhvMeant.saslStr x
      | other => simpa [lhvRead, lhvPushed, lhvText] using LhvMeant.saslOther

example : LhvTold [.call ⟨1, .note, .err (.str "oops")⟩] ⟨1, .sasl, .ret (.str "secret")⟩ (.secret "secret") := by
  unfold LhvTold; decide +kernel

/-- **C146** (partial): a request for TLS is answered as meant unless the handler
raises the value `true`, a question for a certificate or key unless it raises a
text or number: exactly then. -/
theorem C146_tls_partial (pre : List LhvOp) (c : LhvCall) (hn : .exit ∉ pre) :
    (c.kind = .accept → (LhvFaithful pre c ↔ c.out ≠ .err (.bool true))) ∧
    (c.kind = .cert → (LhvFaithful pre c ↔ ¬ LhvSpoken c.out)) := by
  rw [aux_lh_faithful pre c hn]
  obtain ⟨t, k, o⟩ := c
  dsimp only
  refine ⟨?_, ?_⟩
  · rintro rfl
    rcases o with v | v
    · refine ⟨fun _ => by simp, fun _ => ?_⟩
      rcases v with _ | b | x | x | _
      · simpa [lhvRead, lhvPushed, lhvBool, lhvSay] using LhvMeant.acceptNo .nil (by simp)
      · cases b
        · simpa [lhvRead, lhvPushed, lhvBool, lhvSay] using LhvMeant.acceptNo (.bool false) (by simp)
        · simpa [lhvRead, lhvPushed, lhvBool, lhvSay] using LhvMeant.acceptYes
      · simpa [lhvRead, lhvPushed, lhvBool, lhvSay] using LhvMeant.acceptNo (.num x) (by simp)
      · simpa [lhvRead, lhvPushed, lhvBool, lhvSay] using LhvMeant.acceptNo (.str x) (by simp)
      · simpa [lhvRead, lhvPushed, lhvBool, lhvSay] using LhvMeant.acceptNo .other (by simp)
    · rcases v with _ | b | x | x | _
      · simpa [lhvRead, lhvPushed, lhvBool, lhvSay] using LhvMeant.acceptErr .nil
      · cases b
        · simpa [lhvRead, lhvPushed, lhvBool, lhvSay] using LhvMeant.acceptErr (.bool false)
        · simp only [lhvRead, lhvPushed, lhvBool, lhvSay, List.getLast?_append, List.getLast?_singleton]
          constructor
          · intro h; cases h
          · intro h; exact absurd rfl h
      · simpa [lhvRead, lhvPushed, lhvBool, lhvSay] using LhvMeant.acceptErr (.num x)
      · simpa [lhvRead, lhvPushed, lhvBool, lhvSay] using LhvMeant.acceptErr (.str x)
      · simpa [lhvRead, lhvPushed, lhvBool, lhvSay] using LhvMeant.acceptErr .other
  · rintro rfl
    rcases o with v | v
    · refine ⟨fun _ => by simp [LhvSpoken], fun _ => ?_⟩
      rcases v with _ | b | x | x | _
      · simpa [lhvRead, lhvPushed, lhvText] using LhvMeant.certNil
      · simpa [lhvRead, lhvPushed, lhvText] using LhvMeant.certBool b
      · simpa [lhvRead, lhvPushed, lhvText] using LhvMeant.certNum x
      · simpa [lhvRead, lhvPushed, lhvText] using LhvMeant.certStr x
      · simpa [lhvRead, lhvPushed, lhvText] using LhvMeant.certOther
    · rcases v with _ | b | x | x | _
      · simpa [lhvRead, lhvPushed, lhvText, LhvSpoken] using LhvMeant.certErr .nil
      · simpa [lhvRead, lhvPushed, lhvText, LhvSpoken] using LhvMeant.certErr (.bool b)
      · simp [lhvRead, lhvPushed, lhvText, LhvSpoken]
        intro h; cases h
      · simp [lhvRead, lhvPushed, lhvText, LhvSpoken]
        intro h; cases h
      · simpa [lhvRead, lhvPushed, lhvText, LhvSpoken] using LhvMeant.certErr .other

example : LhvFaithful [.call ⟨2, .event, .ret (.bool true)⟩] ⟨2, .accept, .ret (.bool false)⟩ :=
  ((C146_tls_partial _ _ (by decide)).1 rfl).2 (by simp)

theorem aux_lh_bool (v : Option LhvVal) : lhvBool v = true ↔ v = some (.bool true) := by
  rcases v with _ | v
  · simp [lhvBool]
  · cases v <;> simp [lhvBool]

/-- What an event is answered, exactly: the first value left in its thread decides. -/
theorem C146_event_first (pre : List LhvOp) (c : LhvCall) (hn : .exit ∉ pre) (hk : c.kind = .event) :
    (LhvTold pre c .yes ↔ (LhvLeft c.thread (pre ++ [.call c])).head? = some (.bool true)) ∧
    (LhvTold pre c .no ↔ (LhvLeft c.thread (pre ++ [.call c])).head? ≠ some (.bool true)) := by
  have h := aux_lh_toldCall pre c hn
  rw [← aux_lh_leftSnoc pre c hn, hk] at h
  simp only [lhvRead] at h
  generalize (LhvLeft c.thread (pre ++ [.call c])).head? = v at *
  by_cases hv : v = some (.bool true)
  · have hb := (aux_lh_bool v).2 hv
    rw [hb] at h
    refine ⟨⟨fun _ => hv, fun _ => h⟩, ⟨fun h' => ?_, fun h' => absurd hv h'⟩⟩
    have := aux_lh_told pre c _ _ h h'
    simp [lhvSay] at this
  · have hb : lhvBool v = false := by
      cases hc : lhvBool v
      · rfl
      · exact absurd ((aux_lh_bool v).1 hc) hv
    rw [hb] at h
    refine ⟨⟨fun h' => ?_, fun h' => absurd h' hv⟩, ⟨fun _ => hv, fun _ => h⟩⟩
    have := aux_lh_told pre c _ _ h h'
    simp [lhvSay] at this

/-- **C146** (partial): an event is answered as meant exactly if the first value
left in its thread says the same. -/
theorem C146_event_partial (pre : List LhvOp) (c : LhvCall) (hn : .exit ∉ pre) (hk : c.kind = .event) :
    LhvFaithful pre c ↔ LhvAgrees pre c := by
  have hf := C146_event_first pre c hn hk
  unfold LhvAgrees
  obtain ⟨t, k, o⟩ := c
  dsimp only at *
  subst hk
  constructor
  · rintro ⟨a, ha, h1, _⟩
    have hm := h1 hn
    cases hm with
    | eventYes => exact ⟨fun _ => rfl, fun _ => hf.1.1 ha⟩
    | eventNo v hv =>
      exact ⟨fun h => absurd h (hf.2.1 ha), fun h => absurd (by simpa using h) hv⟩
    | eventErr v => exact ⟨fun h => absurd h (hf.2.1 ha), fun h => by cases h⟩
  · intro hi
    by_cases ho : o = .ret (.bool true)
    · subst ho
      exact ⟨.yes, hf.1.2 (hi.2 rfl), fun _ => .eventYes, fun hh => absurd hh hn⟩
    · refine ⟨.no, hf.2.2 (fun h => ho (hi.1 h)), fun _ => ?_, fun hh => absurd hh hn⟩
      cases o with
      | ret v => exact .eventNo v (fun h => ho (by rw [h]))
      | err v => exact .eventErr v

/-- An event that is the first to leave a value in its thread is answered as meant, if it does not fail with `true`. -/
theorem C146_fresh_partial (pre : List LhvOp) (c : LhvCall) (hn : .exit ∉ pre) (hk : c.kind = .event)
    (hl : LhvLeft c.thread pre = []) (he : c.out ≠ .err (.bool true)) : LhvFaithful pre c := by
  rw [C146_event_partial pre c hn hk]
  unfold LhvAgrees
  rw [aux_lh_leftSnoc pre c hn, hl, hk]
  cases ho : c.out with
  | ret v => simp [lhvPushed]
  | err v =>
    rw [ho] at he
    simp [lhvPushed]
    intro h; exact he (by rw [h])

example : LhvFaithful [.call ⟨1, .event, .ret (.bool false)⟩, .call ⟨2, .note, .ret .nil⟩] ⟨2, .event, .ret (.bool true)⟩ :=
  C146_fresh_partial _ _ (by decide) rfl (by decide +kernel) (by simp)

/-- A violation: once a value other than `true` is the first left in a thread,
such as that of an event to be repeated or the message of a failed handler, no
event that asks to be removed is removed by a call in that thread. -/
theorem C146_stuck (pre : List LhvOp) (t : Nat) (v : LhvVal) (r : List LhvVal) (hn : .exit ∉ pre)
    (hl : LhvLeft t pre = v :: r) (hv : v ≠ .bool true) : LhvTold pre ⟨t, .event, .ret (.bool true)⟩ .no := by
  rw [(C146_event_first pre _ hn rfl).2, aux_lh_leftSnoc pre _ hn]
  dsimp only
  rw [hl]
  simpa using hv

/-- An event to be called three times is called for ever. -/
example : (lhvRun [.call ⟨1, .event, .ret (.bool false)⟩, .call ⟨1, .event, .ret (.bool false)⟩,
    .call ⟨1, .event, .ret (.bool true)⟩]).2 = [.no, .no, .no] := by decide +kernel

/-- A violation: once `true` is the first value left in a thread, every event called there is removed,
whatever it returns. -/
theorem C146_dropped (pre : List LhvOp) (t : Nat) (r : List LhvVal) (o : LhvOut) (hn : .exit ∉ pre)
    (hl : LhvLeft t pre = .bool true :: r) : LhvTold pre ⟨t, .event, o⟩ .yes := by
  rw [(C146_event_first pre _ hn rfl).1, aux_lh_leftSnoc pre _ hn]
  dsimp only
  rw [hl]
  rfl

/-- A channel was accepted in this thread: the periodic event is lost at its first call there. -/
example : (lhvRun [.call ⟨1, .start, .ret (.bool true)⟩, .call ⟨1, .event, .ret (.bool false)⟩]).2 = [.yes, .yes] := by
  decide +kernel

/-- A violation: the message of an error in the handler is used as the name of the certificate. -/
theorem C146_messageAsFile (pre : List LhvOp) (t : Nat) (m : String) (hn : .exit ∉ pre) :
    LhvTold pre ⟨t, .cert, .err (.str m)⟩ (.path (some m)) := by
  have h := aux_lh_toldCall pre ⟨t, .cert, .err (.str m)⟩ hn
  simpa [lhvRead, lhvPushed, lhvText] using h

example : LhvTold [] ⟨3, .cert, .err (.str "site.lua:7: attempt to index a nil value")⟩
    (.path (some "site.lua:7: attempt to index a nil value")) := C146_messageAsFile _ _ _ (by simp)

/-- A violation: TLS is accepted if the handler raises `true`. -/
theorem C146_raisedTrue (pre : List LhvOp) (t : Nat) (hn : .exit ∉ pre) : LhvTold pre ⟨t, .accept, .err (.bool true)⟩ .yes := by
  have h := aux_lh_toldCall pre ⟨t, .accept, .err (.bool true)⟩ hn
  simpa [lhvRead, lhvPushed, lhvBool, lhvSay] using h

example : LhvTold [.call ⟨0, .note, .ret .nil⟩] ⟨0, .accept, .err (.bool true)⟩ .yes := C146_raisedTrue _ _ (by decide)

theorem C146_statement_false : ¬ C146_statement := by
  intro h
  have := ((h [.call ⟨1, .event, .ret (.bool false)⟩] ⟨1, .event, .ret (.bool true)⟩).2 1)
  revert this
  decide +kernel

/-- Not only because of what is kept: the answers are wrong. -/
theorem C146_answers_false : ¬ ∀ pre c, LhvFaithful pre c := by
  intro h
  have h1 := h [.call ⟨1, .event, .ret (.bool false)⟩] ⟨1, .event, .ret (.bool true)⟩
  rw [C146_event_partial _ _ (by decide) rfl] at h1
  revert h1
  unfold LhvAgrees
  decide +kernel

end Verif.Props
