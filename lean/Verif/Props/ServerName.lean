import Verif.Spec.ServerName
/-!
# C103 — the serverName of a connection
-/
namespace Verif.Props
open Verif.Model Verif.Spec

theorem aux_sn_cut (n : SName) : snCut n = snHost n := by
  induction n with
  | nil => rfl
  | cons c r ih =>
    by_cases h : c = ':'
    · simp [snCut, snHost, h]
    · have : (c != ':') = true := by simp [h]
      simp only [snHost] at ih
      simp [snCut, snHost, h, ih, List.takeWhile, this]

/-! ## The name asked for -/

/-- A channel is asked for with the name that is documented, if the option not to use the host is not used, and a name of the options
is not used together with a context that does not use hosts. What is missing: `C103_acquire_ignored`, `C103_feature_ignored`. -/
theorem C103_requested_partial (conf : SnConf) (s : SnState) (c : Nat) (explicit : Option SName) (hq : s.cl c = .idle)
    (h1 : conf.opts ≠ some (none, false)) (h2 : conf.ctxAcquire = true ∨ ∀ n a, conf.opts ≠ some (some n, a)) :
    (snStep conf s (.ask c explicit)).2 = [.asked c (snWanted conf s.cName explicit)] := by
  simp only [snStep, hq, List.cons.injEq, SnEvent.asked.injEq, true_and, and_true]
  obtain ⟨ca, opts, host⟩ := conf
  cases explicit with
  | some n => simp [snRequested, snWanted]
  | none =>
    cases hb : s.cName with
    | some b => simp [snRequested, snWanted]
    | none =>
      simp only [snRequested, and_self, if_true, snOpts, snStoredName, snStoredAcquire, snWanted]
      match opts with
      | none => cases ca <;> simp
      | some (some n, a) =>
        rcases h2 with h2 | h2
        · simp only at h2; subst h2; cases a <;> simp
        · exact absurd rfl (h2 n a)
      | some (none, true) => cases ca <;> simp
      | some (none, false) => exact absurd rfl h1

-- a given name, the one of the options, the host
example : (snStep ⟨true, some (some "x.org".toList, true), "h".toList⟩ .init (.ask 1 (some "y.org".toList))).2 = [.asked 1 (some "y.org".toList)] ∧
    (snStep ⟨true, some (some "x.org".toList, true), "h".toList⟩ .init (.ask 1 none)).2 = [.asked 1 (some "x.org".toList)] ∧
    (snStep ⟨true, none, "h".toList⟩ .init (.ask 1 none)).2 = [.asked 1 (some "h".toList)] := by decide

/-- **Violation**: the option not to use the host is ignored: the host is used all the same. -/
theorem C103_acquire_ignored (host : SName) (c : Nat) :
    let conf : SnConf := ⟨true, some (none, false), host⟩
    snWanted conf none none = none ∧ (snStep conf .init (.ask c none)).2 = [.asked c (some host)] := ⟨rfl, rfl⟩

/-- **Violation**: a name given with the options is ignored if the context says not to use hosts. -/
theorem C103_feature_ignored (host n : SName) (acquire : Bool) (c : Nat) :
    let conf : SnConf := ⟨false, some (some n, acquire), host⟩
    snWanted conf none none = some n ∧ (snStep conf .init (.ask c none)).2 = [.asked c none] := ⟨rfl, rfl⟩

/-! ## The name of the connection -/

def aux_sn_mk (c0 : Nat) (p : SnClient) (q : SnServer) (cn sn : Option SName) (w : List (Nat × Option SName)) (b : Option Nat)
    (r : List (Nat × Bool)) : SnState :=
  ⟨cn, sn, fun d => if d = c0 then p else .idle, w, fun d => if d = c0 then q else .none, b, r⟩

theorem aux_sn_setC {c0 p q cn sn w b r} (p' : SnClient) : snSetC (aux_sn_mk c0 p q cn sn w b r) c0 p' = aux_sn_mk c0 p' q cn sn w b r := by
  simp only [snSetC, aux_sn_mk, SnState.mk.injEq, true_and, and_true]
  funext d; split <;> rfl

theorem aux_sn_setS {c0 p q cn sn w b r} (q' : SnServer) : snSetS (aux_sn_mk c0 p q cn sn w b r) c0 q' = aux_sn_mk c0 p q' cn sn w b r := by
  simp only [snSetS, aux_sn_mk, SnState.mk.injEq, true_and, and_true]
  funext d; split <;> rfl

theorem aux_sn_reply {c0 p q cn sn w b r} (ok : Bool) (hb : b = none ∨ b = some c0) :
    snReply (aux_sn_mk c0 p q cn sn w b r) c0 ok = aux_sn_mk c0 p .none cn sn w none (r ++ [(c0, ok)]) := by
  simp only [snReply, aux_sn_setS]
  rcases hb with rfl | rfl <;> simp [aux_sn_mk]

/-- The states, when channels are asked for one after the other; `F` is the name of the connection before. -/
inductive aux_sn_Ph (F req : Option SName) (c0 : Nat) : SnState → Prop
  | quiet : aux_sn_Ph F req c0 (aux_sn_mk c0 .idle .none F F [] none [])
  | asked : aux_sn_Ph F req c0 (aux_sn_mk c0 (.asked req) .none F F [] none [])
  | sent : aux_sn_Ph F req c0 (aux_sn_mk c0 (.waiting req) .none F F [(c0, req)] none [])
  | deferred : aux_sn_Ph F req c0 (aux_sn_mk c0 (.waiting req) (.deferred (F.or req)) F F [] none [])
  | accepted (b : Option Nat) (hb : b = none ∨ b = some c0) : aux_sn_Ph F req c0 (aux_sn_mk c0 (.waiting req) (.accepted (F.or req)) F F [] b [])
  | writeS (b : Option Nat) (hb : b = none ∨ b = some c0) (x : SName) (hF : F = none) (hx : req = some x) :
      aux_sn_Ph F req c0 (aux_sn_mk c0 (.waiting req) (.writing x) F F [] b [])
  | no : aux_sn_Ph F req c0 (aux_sn_mk c0 (.waiting req) .none F F [] none [(c0, false)])
  | yes : aux_sn_Ph F req c0 (aux_sn_mk c0 (.waiting req) .none F (F.or (req.map snHost)) [] none [(c0, true)])
  | gotNo : aux_sn_Ph F req c0 (aux_sn_mk c0 (.replied req false) .none F F [] none [])
  | gotYes : aux_sn_Ph F req c0 (aux_sn_mk c0 (.replied req true) .none F (F.or (req.map snHost)) [] none [])
  | writeC (x : SName) (hF : F = none) (hx : req = some x) :
      aux_sn_Ph F req c0 (aux_sn_mk c0 (.writing x) .none F (F.or (req.map snHost)) [] none [])

theorem aux_sn_step (conf : SnConf) (F req : Option SName) (c0 : Nat) (s : SnState) (h : aux_sn_Ph F req c0 s) (op : SnOp)
    (hask : ∀ c e, op = .ask c e → snQuiet s) :
    (∃ c e, op = .ask c e ∧ snStep conf s op = (aux_sn_mk c (.asked (snRequested conf F e)) .none F F [] none [], [.asked c (snRequested conf F e)])) ∨
    (aux_sn_Ph F req c0 (snStep conf s op).1 ∧ (snStep conf s op).2 = []) ∨
    (aux_sn_Ph F req c0 (snStep conf s op).1 ∧ (snStep conf s op).2 = [.told c0 (F.or req)]) ∨
    snStep conf s op = (aux_sn_mk c0 .idle .none F F [] none [], [.failed c0]) ∨
    snStep conf s op = (aux_sn_mk c0 .idle .none (F.or (req.map snHost)) (F.or (req.map snHost)) [] none [], [.created c0]) := by
  cases op with
  | ask c e =>
    left
    have hq := hask c e rfl
    refine ⟨c, e, rfl, ?_⟩
    cases h with
    | quiet =>
      simp only [snStep, hq c, snSetC]
      simp only [aux_sn_mk, Prod.mk.injEq, SnState.mk.injEq, true_and, and_true]
      refine ⟨?_, ?_⟩
      · funext d; split <;> simp
      · funext d; split <;> simp
    | _ => have := hq c0; simp [aux_sn_mk] at this
  | send c =>
    by_cases hc : c = c0
    · subst hc
      cases h with
      | asked =>
        refine .inr (.inl ⟨?_, by simp [snStep, aux_sn_mk]⟩)
        have : (snStep conf (aux_sn_mk c (.asked req) .none F F [] none []) (.send c)).1 = aux_sn_mk c (.waiting req) .none F F [(c, req)] none [] := by
          have e : (aux_sn_mk c (.asked req) .none F F [] none []).cl c = .asked req := by simp [aux_sn_mk]
          simp only [snStep, e, aux_sn_setC]
          rfl
        rw [this]; exact .sent
      | _ => refine .inr (.inl ⟨?_, by simp [snStep, aux_sn_mk]⟩); simp only [snStep, aux_sn_mk, if_true]; constructor <;> assumption
    · have e : s.cl c = .idle := by cases h <;> simp [aux_sn_mk, hc]
      refine .inr (.inl ?_)
      simp only [snStep, e]
      exact ⟨h, trivial⟩
  | take c =>
    by_cases hc : c = c0
    · subst hc
      cases h with
      | no =>
        refine .inr (.inl ?_)
        have e : (aux_sn_mk c (.waiting req) .none F F [] none [(c, false)]).cl c = .waiting req := by simp [aux_sn_mk]
        have e2 : (aux_sn_mk c (.waiting req) .none F F [] none [(c, false)]).replies = [(c, false)] := rfl
        simp only [snStep, e, e2, List.find?, decide_true, aux_sn_setC]
        refine ⟨?_, trivial⟩
        have : { aux_sn_mk c (.replied req false) .none F F [] none [(c, false)] with replies := [(c, false)].erase (c, false) } =
            aux_sn_mk c (.replied req false) .none F F [] none [] := by simp [aux_sn_mk]
        rw [this]; exact .gotNo
      | yes =>
        refine .inr (.inl ?_)
        have e : (aux_sn_mk c (.waiting req) .none F (F.or (req.map snHost)) [] none [(c, true)]).cl c = .waiting req := by simp [aux_sn_mk]
        have e2 : (aux_sn_mk c (.waiting req) .none F (F.or (req.map snHost)) [] none [(c, true)]).replies = [(c, true)] := rfl
        simp only [snStep, e, e2, List.find?, decide_true, aux_sn_setC]
        refine ⟨?_, trivial⟩
        have : { aux_sn_mk c (.replied req true) .none F (F.or (req.map snHost)) [] none [(c, true)] with replies := [(c, true)].erase (c, true) } =
            aux_sn_mk c (.replied req true) .none F (F.or (req.map snHost)) [] none [] := by simp [aux_sn_mk]
        rw [this]; exact .gotYes
      | _ => refine .inr (.inl ⟨?_, by simp [snStep, aux_sn_mk]⟩); simp only [snStep, aux_sn_mk, if_true, List.find?]; constructor <;> assumption
    · have e : s.cl c = .idle := by cases h <;> simp [aux_sn_mk, hc]
      refine .inr (.inl ?_)
      simp only [snStep, e]
      exact ⟨h, trivial⟩
  | goC c =>
    by_cases hc : c = c0
    · subst hc
      cases h with
      | gotNo =>
        refine .inr (.inr (.inr (.inl ?_)))
        have e : (aux_sn_mk c (.replied req false) .none F F [] none []).cl c = .replied req false := by simp [aux_sn_mk]
        simp only [snStep, e, aux_sn_setC]
      | gotYes =>
        have e : (aux_sn_mk c (.replied req true) .none F (F.or (req.map snHost)) [] none []).cl c = .replied req true := by simp [aux_sn_mk]
        have e2 : (aux_sn_mk c (.replied req true) .none F (F.or (req.map snHost)) [] none []).cName = F := rfl
        cases req with
        | none =>
          refine .inr (.inr (.inr (.inr ?_)))
          simp only [snStep, e, aux_sn_setC]; simp
        | some x =>
          cases F with
          | none =>
            refine .inr (.inl ?_)
            simp only [snStep, e, e2, aux_sn_setC, if_true]
            exact ⟨.writeC x rfl rfl, trivial⟩
          | some f =>
            refine .inr (.inr (.inr (.inr ?_)))
            simp only [snStep, e, e2, aux_sn_setC]; simp
      | writeC x hF hx =>
        refine .inr (.inr (.inr (.inr ?_)))
        have e : (aux_sn_mk c (.writing x) .none F (F.or (req.map snHost)) [] none []).cl c = .writing x := by simp [aux_sn_mk]
        simp only [snStep, e, aux_sn_setC]
        subst hF hx
        simp [aux_sn_mk, aux_sn_cut]
      | _ => refine .inr (.inl ⟨?_, by simp [snStep, aux_sn_mk]⟩); simp only [snStep, aux_sn_mk, if_true]; constructor <;> assumption
    · have e : s.cl c = .idle := by cases h <;> simp [aux_sn_mk, hc]
      refine .inr (.inl ?_)
      simp only [snStep, e]
      exact ⟨h, trivial⟩
  | serve v =>
    cases h with
    | sent =>
      have e : { aux_sn_mk c0 (.waiting req) .none F F [(c0, req)] none [] with wire := [] } = aux_sn_mk c0 (.waiting req) .none F F [] none [] := rfl
      have en : (match F, req with
          | some b, some r => if r ≠ b then some b else some r
          | some b, none => some b
          | none, r => r) = F.or req := by
        cases F with
        | none => simp
        | some b =>
          cases req with
          | none => simp
          | some r => by_cases hr : r = b <;> simp [hr]
      have es : ∀ v, snStep conf (aux_sn_mk c0 (.waiting req) .none F F [(c0, req)] none []) (.serve v) =
          (match v with
          | .refused => (snReply (aux_sn_mk c0 (.waiting req) .none F F [] none []) c0 false, [])
          | .denied => (snReply (aux_sn_mk c0 (.waiting req) .none F F [] none []) c0 false, [.told c0 (F.or req)])
          | .accepted => ({ snSetS (aux_sn_mk c0 (.waiting req) .none F F [] none []) c0 (.accepted (F.or req)) with busy := some c0 }, [.told c0 (F.or req)])
          | .deferred => (snSetS (aux_sn_mk c0 (.waiting req) .none F F [] none []) c0 (.deferred (F.or req)), [.told c0 (F.or req)])) := by
        intro v
        rw [← en]
        cases v <;> rfl
      rw [es]
      cases v with
      | refused => refine .inr (.inl ?_); simp only [aux_sn_reply false (.inl rfl)]; exact ⟨.no, trivial⟩
      | denied => refine .inr (.inr (.inl ?_)); simp only [aux_sn_reply false (.inl rfl)]; exact ⟨.no, trivial⟩
      | accepted => refine .inr (.inr (.inl ?_)); simp only [aux_sn_setS]; exact ⟨.accepted (some c0) (.inr rfl), trivial⟩
      | deferred => refine .inr (.inr (.inl ?_)); simp only [aux_sn_setS]; exact ⟨.deferred, trivial⟩
    | accepted b hb =>
      refine .inr (.inl ?_)
      rcases hb with rfl | rfl
      · exact ⟨.accepted _ (.inl rfl), rfl⟩
      · exact ⟨.accepted _ (.inr rfl), rfl⟩
    | writeS b hb x hF hx =>
      refine .inr (.inl ?_)
      rcases hb with rfl | rfl
      · exact ⟨.writeS _ (.inl rfl) x hF hx, rfl⟩
      · exact ⟨.writeS _ (.inr rfl) x hF hx, rfl⟩
    | _ => refine .inr (.inl ⟨?_, rfl⟩); simp only [snStep, snServe, aux_sn_mk]; constructor <;> assumption
  | settle c ok =>
    by_cases hc : c = c0
    · subst hc
      cases h with
      | deferred =>
        refine .inr (.inl ?_)
        have e : (aux_sn_mk c (.waiting req) (.deferred (F.or req)) F F [] none []).sv c = .deferred (F.or req) := by simp [aux_sn_mk]
        simp only [snStep, e]
        cases ok with
        | true => simp only [if_true, aux_sn_setS]; exact ⟨.accepted none (.inl rfl), trivial⟩
        | false => simp only [Bool.false_eq_true, if_false, aux_sn_reply false (.inl rfl)]; exact ⟨.no, trivial⟩
      | _ => refine .inr (.inl ⟨?_, by simp [snStep, aux_sn_mk]⟩); simp only [snStep, aux_sn_mk, if_true]; constructor <;> assumption
    · have e : s.sv c = .none := by cases h <;> simp [aux_sn_mk, hc]
      refine .inr (.inl ?_)
      simp only [snStep, e]
      exact ⟨h, trivial⟩
  | goS c =>
    by_cases hc : c = c0
    · subst hc
      cases h with
      | accepted b hb =>
        refine .inr (.inl ?_)
        have go : ∀ (F G : Option SName) (m : Option SName), (aux_sn_mk c (.waiting req) (.accepted m) F G [] b []).sv c = .accepted m ∧
            (aux_sn_mk c (.waiting req) (.accepted m) F G [] b []).sName = G := by intro F G m; simp [aux_sn_mk]
        cases F with
        | some f =>
          rw [Option.some_or]
          simp only [snStep, (go _ _ _).1, (go _ _ _).2, aux_sn_reply true hb]
          simp only [reduceCtorEq, if_false]
          exact ⟨.yes, trivial⟩
        | none =>
          cases req with
          | none =>
            rw [Option.none_or]
            simp only [snStep, (go _ _ _).1, aux_sn_reply true hb]; exact ⟨.yes, trivial⟩
          | some x =>
            rw [Option.none_or]
            simp only [snStep, (go _ _ _).1, (go _ _ _).2, if_true, aux_sn_setS]; exact ⟨.writeS b hb x rfl rfl, trivial⟩
      | writeS b hb x hF hx =>
        refine .inr (.inl ?_)
        have e : (aux_sn_mk c (.waiting req) (.writing x) F F [] b []).sv c = .writing x := by simp [aux_sn_mk]
        simp only [snStep, e, aux_sn_reply true hb]
        refine ⟨?_, trivial⟩
        subst hF hx
        rw [aux_sn_cut]
        exact .yes
      | _ => refine .inr (.inl ⟨?_, by simp [snStep, aux_sn_mk]⟩); simp only [snStep, aux_sn_mk, if_true]; constructor <;> assumption
    · have e : s.sv c = .none := by cases h <;> simp [aux_sn_mk, hc]
      refine .inr (.inl ?_)
      simp only [snStep, e]
      exact ⟨h, trivial⟩

theorem aux_sn_last (c : Nat) (a : List SnEvent) (e : SnEvent) (x : Option SName) :
    snLast c (a ++ [e]) x = (match e with | .asked d req => if c = d then req else snLast c a x | _ => snLast c a x) := by
  induction a generalizing x with
  | nil => cases e <;> rfl
  | cons f a ih => cases f <;> simp only [List.cons_append, snLast, ih]

theorem aux_sn_first (a : List SnEvent) (e : SnEvent) (last : Nat → Option SName) :
    snFirst last (a ++ [e]) = (snFirst last a).or (match e with | .created c => (snLast c a (last c)).map snHost | _ => none) := by
  induction a generalizing last with
  | nil =>
    cases e with
    | created c => simp only [List.nil_append, snFirst, snLast, Option.none_or]; cases last c <;> rfl
    | _ => rfl
  | cons f a ih =>
    cases f with
    | asked c req => simp only [List.cons_append, snFirst, ih, snLast]
    | created c =>
      simp only [List.cons_append, snFirst, snLast]
      cases last c with
      | none => exact ih last
      | some n => simp
    | told c n => exact ih last
    | failed c => exact ih last

/-- The history up to now, for channels asked for one after the other. -/
structure aux_sn_I (s : SnState) (log : List SnEvent) : Prop where
  ph : ∃ c0, aux_sn_Ph (snFirst (fun _ => none) log) (snLast c0 log none) c0 s
  told : ∀ a c n b, log = a ++ .told c n :: b → n = (snFirst (fun _ => none) a).or (snLast c a none)

theorem aux_sn_told {log : List SnEvent} {e : SnEvent} (h : ∀ a c n b, log = a ++ .told c n :: b → n = (snFirst (fun _ => none) a).or (snLast c a none))
    (he : ∀ c n, e = .told c n → n = (snFirst (fun _ => none) log).or (snLast c log none)) :
    ∀ a c n b, log ++ [e] = a ++ .told c n :: b → n = (snFirst (fun _ => none) a).or (snLast c a none) := by
  intro a c n b hab
  rcases List.eq_nil_or_concat b with rfl | ⟨b', x, rfl⟩
  · obtain ⟨h1, h2⟩ := List.append_inj' hab rfl
    simp only [List.cons.injEq, and_true] at h2
    subst h1
    exact he c n h2
  · rw [List.concat_eq_append, ← List.cons_append, ← List.append_assoc] at hab
    exact h a c n b' (List.append_inj' hab rfl).1

theorem aux_sn_I_step (conf : SnConf) (s : SnState) (log : List SnEvent) (h : aux_sn_I s log) (op : SnOp)
    (hask : ∀ c e, op = .ask c e → snQuiet s) : aux_sn_I (snStep conf s op).1 (log ++ (snStep conf s op).2) := by
  obtain ⟨⟨c0, hp⟩, ht⟩ := h
  rcases aux_sn_step conf _ _ c0 s hp op hask with ⟨c, e, -, hs⟩ | ⟨h1, h2⟩ | ⟨h1, h2⟩ | hs | hs
  · rw [hs]
    refine ⟨⟨c, ?_⟩, aux_sn_told ht (by simp)⟩
    rw [aux_sn_first, aux_sn_last]
    simp only [if_true, Option.or_none]
    exact .asked
  · rw [h2, List.append_nil]; exact ⟨⟨c0, h1⟩, ht⟩
  · rw [h2]
    refine ⟨⟨c0, ?_⟩, aux_sn_told ht (by rintro c n e; simp only [SnEvent.told.injEq] at e; obtain ⟨rfl, rfl⟩ := e; rfl)⟩
    rw [aux_sn_first, aux_sn_last]
    simpa using h1
  · rw [hs]
    refine ⟨⟨c0, ?_⟩, aux_sn_told ht (by simp)⟩
    rw [aux_sn_first, aux_sn_last]
    simp only [Option.or_none]
    exact .quiet
  · rw [hs]
    refine ⟨⟨c0, ?_⟩, aux_sn_told ht (by simp)⟩
    rw [aux_sn_first, aux_sn_last]
    exact .quiet

theorem aux_sn_I_run (conf : SnConf) (ops : List SnOp) (h : snOneByOne conf ops) :
    aux_sn_I (snRun conf .init [] ops).1 (snRun conf .init [] ops).2 := by
  have gen : ∀ (ops : List SnOp) (s : SnState) (log : List SnEvent), aux_sn_I s log →
      (∀ a c e b, ops = a ++ .ask c e :: b → snQuiet (snRun conf s log a).1) → aux_sn_I (snRun conf s log ops).1 (snRun conf s log ops).2 := by
    intro ops
    induction ops with
    | nil => intro s log hi _; exact hi
    | cons op ops ih =>
      intro s log hi hq
      refine ih _ _ (aux_sn_I_step conf s log hi op (fun c e he => hq [] c e ops (by rw [he]; rfl))) ?_
      intro a c e b hab
      exact hq (op :: a) c e b (by rw [hab]; rfl)
  refine gen ops .init [] ⟨⟨0, ?_⟩, by simp⟩ h
  have : SnState.init = aux_sn_mk 0 .idle .none none none [] none [] := by simp [SnState.init, aux_sn_mk]
  rw [this]; exact .quiet

/-- If channels are asked for one after the other, then whatever the server decides, and when: both sides report the same name, which is
the one of the first channel created with a name, without its port; and each start handler was called with this name, or before
there is one with the name asked for. What is missing: `C103_disagree`, `C103_deferred`, `C103_port`. -/
theorem C103_agree_partial (conf : SnConf) (ops : List SnOp) (h : snOneByOne conf ops) :
    (snQuiet (snRun conf .init [] ops).1 →
      (snRun conf .init [] ops).1.cName = snFirst (fun _ => none) (snRun conf .init [] ops).2 ∧
      (snRun conf .init [] ops).1.sName = snFirst (fun _ => none) (snRun conf .init [] ops).2) ∧
    ∀ a c n b, (snRun conf .init [] ops).2 = a ++ .told c n :: b → n = (snFirst (fun _ => none) a).or (snLast c a none) := by
  have hI := aux_sn_I_run conf ops h
  refine ⟨fun hq => ?_, hI.told⟩
  obtain ⟨c0, hp⟩ := hI.ph
  generalize (snRun conf .init [] ops).1 = s at hp hq
  cases hp with
  | quiet => exact ⟨rfl, rfl⟩
  | _ => have := hq c0; simp [aux_sn_mk] at this

-- two channels one after the other, the second one deferred and asked for with another name
example : let ops : List SnOp := [.ask 1 (some "a.org:80".toList), .send 1, .serve .accepted, .goS 1, .goS 1, .take 1, .goC 1, .goC 1,
      .ask 2 (some "b.org".toList), .send 2, .serve .deferred, .settle 2 true, .goS 2, .take 2, .goC 2]
    let r := snRun ⟨true, none, "h".toList⟩ .init [] ops
    r.1.cName = some "a.org".toList ∧ r.1.sName = some "a.org".toList ∧
    r.2 = [.asked 1 (some "a.org:80".toList), .told 1 (some "a.org:80".toList), .created 1, .asked 2 (some "b.org".toList),
      .told 2 (some "a.org".toList), .created 2] := by decide

/-- Once the server reports a name, it does so for ever, whatever threads ask for channels and however they overlap, if no start is
deferred. What is missing: `C103_overwritten`. -/
theorem C103_kept_partial (conf : SnConf) (a b : List SnOp) (h : ∀ op ∈ a ++ b, op ≠ .serve .deferred) (n : SName)
    (hn : (snRun conf .init [] a).1.sName = some n) : (snRun conf .init [] (a ++ b)).1.sName = some n := by
  let I : SnState → Prop := fun s => ∀ c, s.sv c = .none ∨ s.busy = some c ∧ ((∃ m, s.sv c = .accepted m) ∨ ∃ x, s.sv c = .writing x ∧ s.sName = none)
  have hrep : ∀ (s : SnState) (c : Nat) (ok : Bool), I s → ∀ m, (m = s.sName ∨ s.busy = some c) → I { snReply s c ok with sName := m } := by
    intro s c ok hI m hm d
    by_cases hd : d = c
    · left; simp [snReply, snSetS, hd]
    · rcases hI d with h | ⟨h1, h2⟩
      · left; simp [snReply, snSetS, hd, h]
      · have hb : s.busy ≠ some c := by rw [h1]; simpa using hd
        rcases hm with rfl | hm
        · right; simpa [snReply, snSetS, hd, hb, h1] using h2
        · exact absurd hm hb
  have key : ∀ op s, op ≠ .serve .deferred → I s → I (snStep conf s op).1 ∧ (∀ n, s.sName = some n → (snStep conf s op).1.sName = some n) := by
    intro op s ho hI
    cases op with
    | ask c e => simp only [snStep]; split <;> exact ⟨hI, fun n h => h⟩
    | send c => simp only [snStep]; split <;> exact ⟨hI, fun n h => h⟩
    | take c => simp only [snStep]; split <;> exact ⟨hI, fun n h => h⟩
    | goC c => simp only [snStep]; (repeat' split) <;> exact ⟨hI, fun n h => h⟩
    | settle c ok =>
      simp only [snStep]
      split
      · rename_i m hm
        rcases hI c with h | ⟨_, ⟨_, h⟩ | ⟨_, h, _⟩⟩ <;> rw [h] at hm <;> cases hm
      · exact ⟨hI, fun n h => h⟩
    | serve v =>
      simp only [snStep, snServe]
      split
      · exact ⟨hI, fun n h => h⟩
      · exact ⟨hI, fun n h => h⟩
      · rename_i c req w hb hw
        have hI' : I { s with wire := w } := hI
        cases v with
        | deferred => exact absurd rfl ho
        | refused => exact ⟨hrep _ c false hI' s.sName (.inl rfl), fun n h => h⟩
        | denied => exact ⟨hrep _ c false hI' s.sName (.inl rfl), fun n h => h⟩
        | accepted =>
          refine ⟨?_, fun n h => h⟩
          intro d
          by_cases hd : d = c
          · right; simp [snSetS, hd]
          · left
            rcases hI d with h | ⟨h1, _⟩
            · simp [snSetS, hd, h]
            · rw [hb] at h1; cases h1
    | goS c =>
      simp only [snStep]
      split
      · exact ⟨hrep s c true hI s.sName (.inl rfl), fun n h => h⟩
      · rename_i x hx
        split
        · rename_i hn
          refine ⟨?_, fun n h => h⟩
          intro d
          rcases hI d with h | ⟨h1, h2⟩
          · by_cases hd : d = c
            · rw [hd, hx] at h; cases h
            · left; simp [snSetS, hd, h]
          · right
            refine ⟨h1, ?_⟩
            by_cases hd : d = c
            · right; exact ⟨x, by simp [snSetS, hd], hn⟩
            · simpa [snSetS, hd] using h2
        · exact ⟨hrep s c true hI s.sName (.inl rfl), fun n h => h⟩
      · rename_i x hx
        rcases hI c with h | ⟨h1, ⟨_, h⟩ | ⟨_, _, h2⟩⟩
        · rw [hx] at h; cases h
        · rw [hx] at h; cases h
        · exact ⟨hrep s c true hI _ (.inr h1), fun n h => by rw [h2] at h; cases h⟩
      · exact ⟨hI, fun n h => h⟩
  have run : ∀ (ops : List SnOp) (s : SnState) (log : List SnEvent), (∀ op ∈ ops, op ≠ .serve .deferred) → I s →
      I (snRun conf s log ops).1 ∧ (∀ n, s.sName = some n → (snRun conf s log ops).1.sName = some n) := by
    intro ops
    induction ops with
    | nil => intro s log _ hI; exact ⟨hI, fun n h => h⟩
    | cons op ops ih =>
      intro s log ho hI
      obtain ⟨k1, k2⟩ := key op s (ho op (by simp)) hI
      obtain ⟨k3, k4⟩ := ih (snStep conf s op).1 (log ++ (snStep conf s op).2) (fun o h => ho o (by simp [h])) k1
      exact ⟨k3, fun n h => k4 n (k2 n h)⟩
  have app : ∀ (a b : List SnOp) (s : SnState) (log : List SnEvent), snRun conf s log (a ++ b) = snRun conf (snRun conf s log a).1 (snRun conf s log a).2 b := by
    intro a
    induction a with
    | nil => intros; rfl
    | cons op a ih => intro b s log; exact ih b _ _
  rw [app]
  have hA := (run a .init [] (fun o ho => h o (by simp [ho])) (fun c => .inl rfl)).1
  exact (run b _ _ (fun o ho => h o (by simp [ho])) hA).2 n hn

-- two threads, overlapping
example : let ops : List SnOp := [.ask 1 (some "a".toList), .ask 2 (some "b".toList), .send 2, .send 1, .serve .accepted, .goS 2, .goS 2, .serve .accepted, .goS 1]
    (snRun ⟨true, none, "h".toList⟩ .init [] ops).1.sName = some "b".toList := by decide

/-- **Violation**: of two channels asked for by two threads, the server takes the name of the first one, the client the one of the
second one. -/
theorem C103_disagree : ∃ (conf : SnConf) (ops : List SnOp), (∀ op ∈ ops, op ≠ .serve .deferred) ∧ snQuiet (snRun conf .init [] ops).1 ∧
    (snRun conf .init [] ops).1.cName = some "b.org".toList ∧ (snRun conf .init [] ops).1.sName = some "a.org".toList := by
  refine ⟨⟨true, none, "h".toList⟩, [.ask 1 (some "a.org".toList), .ask 2 (some "b.org".toList), .send 1, .send 2, .serve .accepted, .goS 1, .goS 1,
    .serve .accepted, .goS 2, .take 1, .take 2, .goC 2, .goC 2, .goC 1], by decide, ?_, by decide, by decide⟩
  intro c
  by_cases h1 : c = 1
  · subst h1; decide
  by_cases h2 : c = 2
  · subst h2; decide
  simp [snRun, snStep, snServe, snSetC, snSetS, snReply, snRequested, SnState.init, h1, h2, List.find?, List.erase, snCut]

/-- **Violation**: the name of a connection is replaced by another one, if two starts were deferred and are notified by two threads. -/
theorem C103_overwritten : ∃ (conf : SnConf) (a b : List SnOp), (snRun conf .init [] a).1.sName = some "a.org".toList ∧
    (snRun conf .init [] (a ++ b)).1.sName = some "b.org".toList :=
  ⟨⟨true, none, "h".toList⟩, [.ask 1 (some "a.org".toList), .ask 2 (some "b.org".toList), .send 1, .send 2, .serve .deferred, .serve .deferred,
    .settle 1 true, .settle 2 true, .goS 1, .goS 2, .goS 1], [.goS 2], by decide, by decide⟩

/-- **Violation**: a start handler is told a name, the channel is created, but the connection has another name. -/
theorem C103_deferred : ∃ (conf : SnConf) (ops : List SnOp), SnEvent.told 1 (some "a.org".toList) ∈ (snRun conf .init [] ops).2 ∧
    SnEvent.created 1 ∈ (snRun conf .init [] ops).2 ∧
    ∀ k, (snRun conf .init [] (ops.take k)).1.sName = none ∨ (snRun conf .init [] (ops.take k)).1.sName = some "b.org".toList := by
  refine ⟨⟨true, none, "h".toList⟩, [.ask 1 (some "a.org".toList), .send 1, .serve .deferred, .ask 2 (some "b.org".toList), .send 2, .serve .accepted,
    .goS 2, .goS 2, .settle 1 true, .goS 1, .take 2, .goC 2, .goC 2, .take 1, .goC 1], by decide, by decide, ?_⟩
  intro k
  by_cases hk : k < 15
  · have : ∀ k, k < 15 → ((snRun ⟨true, none, "h".toList⟩ .init [] ([.ask 1 (some "a.org".toList), .send 1, .serve .deferred, .ask 2 (some "b.org".toList), .send 2,
        .serve .accepted, .goS 2, .goS 2, .settle 1 true, .goS 1, .take 2, .goC 2, .goC 2, .take 1, .goC 1].take k)).1.sName = none ∨
        (snRun ⟨true, none, "h".toList⟩ .init [] ([.ask 1 (some "a.org".toList), .send 1, .serve .deferred, .ask 2 (some "b.org".toList), .send 2,
        .serve .accepted, .goS 2, .goS 2, .settle 1 true, .goS 1, .take 2, .goC 2, .goC 2, .take 1, .goC 1].take k)).1.sName = some "b.org".toList) := by
      decide +kernel
    exact this k hk
  · rw [List.take_of_length_le (by simp; omega)]
    right; decide

/-- **Violation**: the first start handler is called with a name the connection never has, if the name has a port; and if the name is an
IPv6 address, as taken from the host of the connection, almost nothing of it is left. -/
theorem C103_port : ∃ ops : List SnOp,
    (let r := snRun ⟨true, none, "2001:db8::1".toList⟩ .init [] ops
     r.2 = [.asked 1 (some "2001:db8::1".toList), .told 1 (some "2001:db8::1".toList), .created 1] ∧
     r.1.cName = some "2001".toList ∧ r.1.sName = some "2001".toList) ∧
    (snRun ⟨true, none, "::1".toList⟩ .init [] ops).1.sName = some [] :=
  ⟨[.ask 1 none, .send 1, .serve .accepted, .goS 1, .goS 1, .take 1, .goC 1, .goC 1], by decide, by decide⟩

/-- What a user relies on: channels are asked for with the configured name; both sides report the same name when no call is in progress;
a name once reported stays; and start handlers are called with the name of the connection, from the first one on. -/
def C103_statement : Prop :=
  ∀ (conf : SnConf) (a b : List SnOp),
    (∀ c e, (snRun conf .init [] a).1.cl c = .idle →
      (snStep conf (snRun conf .init [] a).1 (.ask c e)).2 = [.asked c (snWanted conf (snRun conf .init [] a).1.cName e)]) ∧
    (snQuiet (snRun conf .init [] a).1 → (snRun conf .init [] a).1.cName = (snRun conf .init [] a).1.sName) ∧
    (∀ n, (snRun conf .init [] a).1.sName = some n → (snRun conf .init [] (a ++ b)).1.sName = some n) ∧
    ∀ c n m, SnEvent.told c (some n) ∈ (snRun conf .init [] a).2 → (snRun conf .init [] a).1.sName = some m → SnEvent.created c ∈ (snRun conf .init [] a).2 → n = m

theorem C103_statement_false : ¬ C103_statement := by
  intro h
  obtain ⟨conf, a, b, h1, h2⟩ := C103_overwritten
  have := (h conf a b).2.2.1 _ h1
  rw [h2] at this
  exact absurd this (by decide)

end Verif.Props
