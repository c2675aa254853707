import Verif.Spec.Sasl
/-!
# C55-C57: SASL
-/
namespace Verif.Props
open Verif.Model Verif.Spec

/-! ### The listener knows who the peer is -/

/-- The property: if the connection is authenticated, the identity reported is one the peer proved. -/
def C55_statement : Prop :=
  ∀ (cfg : SaslConfig) (es : List SaslEvent) (as : List SaslAnswer) (c : SaslServer),
    SaslServer.init.run cfg es = some (as, c) → c.isAuthenticated = true →
    ∃ m p, saslProved cfg es as m p ∧ (c.props.authid, c.props.authzid) = saslIdentity (saslShown m p)

/-- An application with a handler that accepts everybody known: passwords are known for everybody. -/
def aux_sa_cfg : SaslConfig := ⟨fun _ _ => true, fun _ => false⟩

/-- A peer that is user 1 tries DIGEST-MD5 for authorization id 9 without the password, then PLAIN with its own. -/
def aux_sa_stale : List SaslEvent :=
  [.start .digest true (.blob .more), .frame (.blob (.ask ⟨some 1, some 9, some 0, none⟩ false)),
   .start .plain true (.blob (.ask ⟨some 1, none, none, none⟩ true))]

/-- **Violation**: it is authenticated, with authorization id 9, which it never proved. -/
theorem C55_stale_authzid :
    (SaslServer.init.run aux_sa_cfg aux_sa_stale).map (fun r => (r.1, r.2.isAuthenticated, r.2.props.authid, r.2.props.authzid)) =
      some ([.more, .failure, .complete], true, some 1, some 9) := by decide

/-- **Violation**: CRAM-MD5 as user 9 without the password, then EXTERNAL: the authentication id is 9. -/
theorem C55_stale_authid :
    (SaslServer.init.run aux_sa_cfg
      [.start .cram true (.blob .more), .frame (.blob (.ask ⟨some 9, none, none, none⟩ false)),
       .start .external true (.blob (.ask ⟨none, some 1, none, none⟩ true))]).map
      (fun r => (r.1, r.2.isAuthenticated, r.2.props.authid)) = some ([.more, .failure, .complete], true, some 9) := by decide

/-- **Violation**: user 1 is authenticated with CRAM-MD5 and goes on to send a wrong proof for user 9 on the same channel
(the mechanism of gsasl does not count its steps). It is told that this failed, and has the authentication id 9. -/
theorem C55_switch_user :
    (SaslServer.init.run aux_sa_cfg
      [.start .cram true (.blob .more), .frame (.blob (.ask ⟨some 1, none, none, none⟩ true)),
       .frame (.blob (.ask ⟨some 9, none, none, none⟩ false))]).map
      (fun r => (r.1, r.2.isAuthenticated, r.2.props.authid)) = some ([.more, .complete, .failure], true, some 9) := by decide

theorem C55_statement_false : ¬ C55_statement := by
  intro h
  obtain ⟨as, c, hr, ha, h9, hs⟩ : ∃ as c, SaslServer.init.run aux_sa_cfg aux_sa_stale = some (as, c) ∧ c.isAuthenticated = true ∧
      c.props.authzid = some 9 ∧ as = [.more, .failure, .complete] := by
    refine ⟨_, _, rfl, by decide, by decide, by decide⟩
  obtain ⟨m, p, ⟨i, hi, _, proof, he, _⟩, hid⟩ := h _ _ _ _ hr ha
  rw [hs] at hi
  have h2 : i = 2 := by
    match i, hi with
    | 0, hi => simp at hi
    | 1, hi => simp at hi
    | 2, _ => rfl
    | n + 3, hi => simp at hi
  subst h2
  simp only [aux_sa_stale, List.getElem?_cons_succ, List.getElem?_cons_zero, Option.some.injEq, reduceCtorEq, false_and, false_or,
    SaslEvent.start.injEq, SaslInput.blob.injEq, SaslTurn.ask.injEq, true_and] at he
  obtain ⟨hm, hp, _⟩ := he
  subst hm; subst hp
  rw [h9] at hid
  simp [saslShown, saslIdentity] at hid

theorem aux_sa_shown (m : SaslMech) (p : SaslProps) : saslShown m p = m.relevant p := by cases m <;> rfl

theorem aux_sa_pass (m : SaslMech) : m = .cram ∨ m = .digest ↔ m.byPassword = true := by cases m <;> simp [SaslMech.byPassword]

theorem aux_sa_accept_id (common : Bool) (m : SaslMech) (p : SaslProps) (hc : m.complete (m.relevant p) = true)
    (q : SaslProps) (hq : q.authid = none ∧ q.authzid = none) :
    ((q.accept common m (m.relevant p)).authid, (q.accept common m (m.relevant p)).authzid) = saslIdentity (saslShown m p) := by
  obtain ⟨a, z, r, t⟩ := p
  obtain ⟨qa, qz, qr, qt⟩ := q
  obtain ⟨h1, h2⟩ := hq
  dsimp only at h1 h2
  subst h1; subst h2
  cases m <;> cases common <;> cases a <;> cases z <;> cases t <;>
    simp_all [SaslProps.accept, SaslMech.relevant, SaslProps.setToken, saslSet, saslIdentity, saslShown, SaslMech.complete]

/-- One message: what it can do to the connection. -/
theorem aux_sa_iterate (cfg : SaslConfig) (c c' : SaslServer) (i : SaslInput) (ok : Bool) (a : SaslAnswer)
    (h : c.iterate cfg i = some (ok, a, c')) :
    c'.chans = c.chans ∧
    ((a = .complete ∧ ok = true ∧ ∃ m p proof, c.session = .running m ∧ i = .blob (.ask p proof) ∧
        cfg.accepts m (m.relevant p) = true ∧ m.complete (m.relevant p) = true ∧ (m.byPassword = true → proof = true) ∧
        c' = { c with props := c.props.accept (cfg.common m) m (m.relevant p), method := some m, authed := true, masked := true }) ∨
     (a ≠ .complete ∧ (ok = true → a = .more) ∧ c'.masked = c.masked ∧ (c'.authed = true → c.authed = true) ∧
        (c'.props = c.props ∨ (c'.authed = false ∧ c'.props.authid = none ∧ c'.props.authzid = none) ∨
          ∃ m p, i = .blob (.ask p false) ∧ c.session = .running m ∧ m.byPassword = true ∧ cfg.accepts m (m.relevant p) = true ∧
            c'.props = c.props.accept (cfg.common m) m (m.relevant p)))) := by
  cases i with
  | malformed => simp [SaslServer.iterate] at h; obtain ⟨h1, h2, h3⟩ := h; subst h1 h2 h3; simp [SaslServer.fail]
  | abort => simp [SaslServer.iterate] at h; obtain ⟨h1, h2, h3⟩ := h; subst h1 h2 h3; simp
  | blob t =>
    unfold SaslServer.iterate at h
    dsimp only at h
    cases hs : c.session with
    | absent => rw [hs] at h; simp at h
    | unstarted => rw [hs] at h; simp at h
    | running m =>
      rw [hs] at h
      dsimp only at h
      cases t with
      | more => simp at h; obtain ⟨h1, h2, h3⟩ := h; subst h1 h2 h3; simp
      | error => simp at h; obtain ⟨h1, h2, h3⟩ := h; subst h1 h2 h3; simp
      | ask p proof =>
        dsimp only at h
        unfold SaslServer.validate at h
        by_cases hv : (m.complete (m.relevant p) && cfg.accepts m (m.relevant p)) = true
        · rw [if_pos hv] at h
          simp only [Bool.and_eq_true] at hv
          by_cases hp : (proof || !m.byPassword) = true
          · simp only [hp, Bool.and_self, if_true, Option.some.injEq, Prod.mk.injEq] at h
            obtain ⟨h1, h2, h3⟩ := h
            subst h1 h2 h3
            refine ⟨rfl, .inl ⟨rfl, rfl, m, p, proof, rfl, rfl, hv.2, hv.1, ?_, by rw [← hs]⟩⟩
            cases proof <;> simp_all
          · simp only [hp, Bool.and_false, Bool.false_eq_true, if_false, Option.some.injEq, Prod.mk.injEq] at h
            obtain ⟨h1, h2, h3⟩ := h
            subst h1 h2 h3
            refine ⟨rfl, .inr ⟨by simp, by simp, rfl, id, .inr (.inr ⟨m, p, ?_, rfl, ?_, hv.2, rfl⟩)⟩⟩
            · cases proof <;> simp_all
            · cases proof <;> simp_all
        · rw [if_neg hv] at h
          simp only [Bool.false_and, Bool.false_eq_true, if_false, Option.some.injEq, Prod.mk.injEq] at h
          obtain ⟨h1, h2, h3⟩ := h
          subst h1 h2 h3
          simp

/-- One event. -/
theorem aux_sa_step (cfg : SaslConfig) (c c' : SaslServer) (e : SaslEvent) (a : SaslAnswer)
    (h : c.step cfg e = some (a, c')) :
    (a = .complete ∧ c'.authed = true ∧ c'.masked = true ∧ ∃ m p proof,
        ((e = .frame (.blob (.ask p proof)) ∧ c.session = .running m) ∨ e = .start m true (.blob (.ask p proof))) ∧
        cfg.accepts m (m.relevant p) = true ∧ m.complete (m.relevant p) = true ∧ (m.byPassword = true → proof = true) ∧
        c'.props = c.props.accept (cfg.common m) m (m.relevant p)) ∨
    (a ≠ .complete ∧ c'.masked = c.masked ∧ (c'.authed = true → c.authed = true) ∧
        (c'.props = c.props ∨ (c'.authed = false ∧ c'.props.authid = none ∧ c'.props.authzid = none) ∨
          (saslHonest e = false ∧ ∃ m p, cfg.accepts m (m.relevant p) = true ∧
            c'.props = c.props.accept (cfg.common m) m (m.relevant p)))) := by
  cases e with
  | close m => simp [SaslServer.step] at h; obtain ⟨h1, h2⟩ := h; subst h1 h2; simp
  | start m sup i =>
    unfold SaslServer.step at h
    dsimp only at h
    split at h
    · simp at h; obtain ⟨h1, h2⟩ := h; subst h1 h2; simp
    · split at h
      · simp at h; obtain ⟨h1, h2⟩ := h; subst h1 h2; simp
      · next hs =>
        have hs : sup = true := by simpa using hs
        subst hs
        split at h
        · simp at h
        · next ok a1 c1 hi =>
          have hI := aux_sa_iterate cfg _ _ _ _ _ hi
          simp only [Option.some.injEq, Prod.mk.injEq] at h
          obtain ⟨h1, h2⟩ := h
          subst h1
          have e1 : c'.masked = c1.masked ∧ c'.authed = c1.authed ∧ c'.props = c1.props := by
            rw [← h2]; split <;> simp
          obtain ⟨e1, e2, e3⟩ := e1
          rcases hI.2 with ⟨h3, h4, m', p, proof, h5, h6, h7, h8, h9, h10⟩ | ⟨h3, h4, h5, h6, h7⟩
          · left
            simp only [SaslSession.running.injEq] at h5
            subst h5
            subst h6
            refine ⟨h3, ?_, ?_, m, p, proof, .inr rfl, h7, h8, h9, ?_⟩
            · rw [e2, h10]
            · rw [e1, h10]
            · rw [e3, h10]
          · right
            refine ⟨h3, ?_, ?_, ?_⟩
            · rw [e1, h5]
            · rw [e2]; exact h6
            · rw [e3, e2]
              rcases h7 with h7 | h7 | ⟨m', p, h7, h8, h9, h10, h11⟩
              · exact .inl h7
              · exact .inr (.inl h7)
              · subst h7; exact .inr (.inr ⟨rfl, m', p, h10, h11⟩)
  | frame i =>
    unfold SaslServer.step at h
    dsimp only at h
    split at h
    · simp at h; obtain ⟨h1, h2⟩ := h; subst h1 h2; simp
    · split at h
      · simp at h
      · simp at h
      · next ok a1 c1 hne hi =>
        have hI := aux_sa_iterate cfg _ _ _ _ _ hi
        simp only [Option.some.injEq, Prod.mk.injEq] at h
        obtain ⟨h1, h2⟩ := h
        subst h1 h2
        rcases hI.2 with ⟨h3, h4, m', p, proof, h5, h6, h7, h8, h9, h10⟩ | ⟨h3, h4, h5, h6, h7⟩
        · left
          subst h6
          refine ⟨h3, ?_, ?_, m', p, proof, .inl ⟨rfl, h5⟩, h7, h8, h9, ?_⟩ <;> rw [h10]
        · right
          refine ⟨h3, h5, h6, ?_⟩
          rcases h7 with h7 | h7 | ⟨m', p, h7, h8, h9, h10, h11⟩
          · exact .inl h7
          · exact .inr (.inl h7)
          · subst h7; exact .inr (.inr ⟨rfl, m', p, h10, h11⟩)

theorem aux_sa_run_cons (cfg : SaslConfig) (c cf : SaslServer) (e : SaslEvent) (es : List SaslEvent) (as : List SaslAnswer)
    (h : c.run cfg (e :: es) = some (as, cf)) :
    ∃ a c1 as', c.step cfg e = some (a, c1) ∧ c1.run cfg es = some (as', cf) ∧ as = a :: as' := by
  simp only [SaslServer.run] at h
  split at h
  · simp at h
  · next a c1 h1 =>
    split at h
    · simp at h
    · next as' c2 h2 =>
      simp only [Option.some.injEq, Prod.mk.injEq] at h
      obtain ⟨h3, h4⟩ := h
      subst h4
      exact ⟨a, c1, as', h1, h2, h3.symm⟩

/-- Where the session of a connection comes from. -/
theorem aux_sa_session (cfg : SaslConfig) (c c' : SaslServer) (e : SaslEvent) (a : SaslAnswer) (m : SaslMech)
    (h : c.step cfg e = some (a, c')) (hm : c.masked = false) (hr : c'.session = .running m) :
    (∃ x, e = .start m true x) ∨ (¬ SaslStarts (some e) ∧ c.session = .running m) := by
  have key : ∀ (c c' : SaslServer) (i : SaslInput) (ok : Bool) (a : SaslAnswer), c.iterate cfg i = some (ok, a, c') →
      c'.session = .running m → c.session = .running m := by
    intro c c' i ok a h hr
    cases i <;> simp only [SaslServer.iterate, SaslServer.validate, SaslServer.fail] at h
    · simp only [Option.some.injEq, Prod.mk.injEq] at h; rw [← h.2.2] at hr; exact hr
    · simp only [Option.some.injEq, Prod.mk.injEq] at h; rw [← h.2.2] at hr; cases hr
    · grind
  cases e with
  | close x => simp only [SaslServer.step, Option.some.injEq, Prod.mk.injEq] at h; rw [← h.2] at hr; exact .inr ⟨by simp [SaslStarts], hr⟩
  | frame i =>
    refine .inr ⟨by simp [SaslStarts], ?_⟩
    simp only [SaslServer.step] at h
    split at h
    · simp only [Option.some.injEq, Prod.mk.injEq] at h; rw [← h.2] at hr; exact hr
    · split at h
      · cases h
      · cases h
      · rename_i hi
        simp only [Option.some.injEq, Prod.mk.injEq] at h
        exact key _ _ _ _ _ hi (by rw [h.2]; exact hr)
  | start x sup i =>
    simp only [SaslServer.step, hm, Bool.false_eq_true, if_false] at h
    split at h
    · simp only [Option.some.injEq, Prod.mk.injEq] at h; rw [← h.2] at hr; cases hr
    · rename_i hs
      have hs : sup = true := by simpa using hs
      subst hs
      split at h
      · cases h
      · rename_i ok a1 c1 hi
        simp only [Option.some.injEq, Prod.mk.injEq] at h
        have : c1.session = .running m := by rw [← h.2] at hr; split at hr <;> exact hr
        have := key _ _ _ _ _ hi this
        simp only [SaslSession.running.injEq] at this
        subst this
        exact .inl ⟨i, rfl⟩

/-- `saslProved` for a connection that has a session already. -/
def aux_sa_Proved (sess : SaslSession) (cfg : SaslConfig) (es : List SaslEvent) (as : List SaslAnswer) (m : SaslMech) (p : SaslProps) : Prop :=
  ∃ i : Nat, as[i]? = some .complete ∧ (cfg.accepts m (saslShown m p) = true ∧ SaslNamed m p) ∧
    ∃ proof, ((es[i]? = some (.frame (.blob (.ask p proof))) ∧
        ((sess = .running m ∧ ∀ k, k < i → ¬ SaslStarts es[k]?) ∨ saslSpoken es i m)) ∨
      es[i]? = some (.start m true (.blob (.ask p proof)))) ∧ (m = .cram ∨ m = .digest → proof = true)

theorem aux_sa_proved_init (cfg : SaslConfig) (es : List SaslEvent) (as : List SaslAnswer) (m : SaslMech) (p : SaslProps)
    (h : aux_sa_Proved .absent cfg es as m p) : saslProved cfg es as m p := by
  obtain ⟨i, h1, h2, proof, h3, h4⟩ := h
  refine ⟨i, h1, h2, proof, ?_, h4⟩
  rcases h3 with ⟨h3, ⟨h5, _⟩ | h5⟩ | h3
  · cases h5
  · exact .inl ⟨h3, h5⟩
  · exact .inr h3

theorem aux_sa_proved_cons (cfg : SaslConfig) (c c1 : SaslServer) (e : SaslEvent) (a : SaslAnswer) (es : List SaslEvent) (as : List SaslAnswer)
    (m : SaslMech) (p : SaslProps) (hs : c.step cfg e = some (a, c1)) (hm : c.masked = false)
    (h : aux_sa_Proved c1.session cfg es as m p) : aux_sa_Proved c.session cfg (e :: es) (a :: as) m p := by
  obtain ⟨i, h1, h2, proof, h3, h4⟩ := h
  refine ⟨i + 1, by simpa using h1, h2, proof, ?_, h4⟩
  rcases h3 with ⟨h3, ⟨h5, h6⟩ | ⟨j, x, h5, h6, h7⟩⟩ | h3
  · refine .inl ⟨by simpa using h3, ?_⟩
    rcases aux_sa_session cfg c c1 e a m hs hm h5 with ⟨x, hx⟩ | ⟨hx, hy⟩
    · subst hx
      refine .inr ⟨0, x, by omega, by simp, fun k hk1 hk2 => ?_⟩
      obtain ⟨n, rfl⟩ : ∃ n, k = n + 1 := ⟨k - 1, by omega⟩
      simpa using h6 n (by omega)
    · refine .inl ⟨hy, fun k hk => ?_⟩
      cases k with
      | zero => simpa using hx
      | succ n => simpa using h6 n (by omega)
  · refine .inl ⟨by simpa using h3, .inr ⟨j + 1, x, by omega, by simpa using h6, fun k hk1 hk2 => ?_⟩⟩
    obtain ⟨n, rfl⟩ : ∃ n, k = n + 1 := ⟨k - 1, by omega⟩
    simpa using h7 n (by omega) (by omega)
  · exact .inr (by simpa using h3)

theorem aux_sa_proved_now (cfg : SaslConfig) (c : SaslServer) (e : SaslEvent) (es : List SaslEvent) (as : List SaslAnswer) (m : SaslMech)
    (p : SaslProps) (proof : Bool) (h7 : (e = .frame (.blob (.ask p proof)) ∧ c.session = .running m) ∨ e = .start m true (.blob (.ask p proof)))
    (h8 : cfg.accepts m (m.relevant p) = true) (h9 : m.complete (m.relevant p) = true) (h10 : m.byPassword = true → proof = true) :
    aux_sa_Proved c.session cfg (e :: es) (.complete :: as) m p := by
  have hn : SaslNamed m p := by
    cases m <;> simpa [SaslNamed, SaslMech.complete, SaslMech.relevant, Option.isSome_iff_exists] using h9
  refine ⟨0, by simp, ⟨by rw [aux_sa_shown]; exact h8, hn⟩, proof, ?_, fun h => h10 ((aux_sa_pass m).mp h)⟩
  rcases h7 with ⟨h7, h9⟩ | h7
  · exact .inl ⟨by simp [h7], .inl ⟨h9, fun k hk => absurd hk (by omega)⟩⟩
  · exact .inr (by simp [h7])

theorem aux_sa_after (cfg : SaslConfig) (I : Option Nat × Option Nat) (es : List SaslEvent) :
    ∀ (c cf : SaslServer) (as : List SaslAnswer), c.run cfg es = some (as, cf) → es.all saslHonest = true →
      as.count .complete = 0 → (c.authed = true → (c.props.authid, c.props.authzid) = I) →
      cf.authed = true → (cf.props.authid, cf.props.authzid) = I := by
  induction es with
  | nil => intro c cf as h _ _ hI; simp [SaslServer.run] at h; obtain ⟨_, h⟩ := h; subst h; exact hI
  | cons e es ih =>
    intro c cf as h hh hc hI
    obtain ⟨a, c1, as', h1, h2, h3⟩ := aux_sa_run_cons cfg c cf e es as h
    subst h3
    simp only [List.all_cons, Bool.and_eq_true] at hh
    rw [List.count_cons] at hc
    have ha : a ≠ .complete := by intro ha; subst ha; simp at hc
    refine ih c1 cf as' h2 hh.2 (by omega) ?_
    rcases aux_sa_step cfg c c1 e a h1 with ⟨h4, _⟩ | ⟨_, _, h5, h6⟩
    · exact absurd h4 ha
    · intro hau
      rcases h6 with h6 | ⟨h6, _⟩ | ⟨h6, _⟩
      · rw [h6]; exact hI (h5 hau)
      · rw [h6] at hau; simp at hau
      · rw [hh.1] at h6; simp at h6

theorem aux_sa_before (cfg : SaslConfig) (es : List SaslEvent) :
    ∀ (c cf : SaslServer) (as : List SaslAnswer), c.run cfg es = some (as, cf) → es.all saslHonest = true →
      as.count .complete ≤ 1 → c.authed = false → c.props.authid = none → c.props.authzid = none → c.masked = false →
      cf.authed = true →
      ∃ m p, aux_sa_Proved c.session cfg es as m p ∧ (cf.props.authid, cf.props.authzid) = saslIdentity (saslShown m p) := by
  induction es with
  | nil => intro c cf as h _ _ h1 _ _ _ h2; simp [SaslServer.run] at h; obtain ⟨_, h⟩ := h; subst h; rw [h1] at h2; simp at h2
  | cons e es ih =>
    intro c cf as h hh hc n1 n2 n3 n4 hau
    obtain ⟨a, c1, as', h1, h2, h3⟩ := aux_sa_run_cons cfg c cf e es as h
    subst h3
    simp only [List.all_cons, Bool.and_eq_true] at hh
    rw [List.count_cons] at hc
    rcases aux_sa_step cfg c c1 e a h1 with ⟨h4, h5, h6, m, p, proof, h7, h8, h9, h10, h11⟩ | ⟨h4, h5, h6, h7⟩
    · subst h4
      refine ⟨m, p, aux_sa_proved_now cfg c e es as' m p proof h7 h8 h9 h10, ?_⟩
      refine aux_sa_after cfg _ es c1 cf as' h2 hh.2 (by simp at hc; omega) (fun _ => ?_) hau
      rw [h11]
      exact aux_sa_accept_id _ m p h9 _ ⟨n2, n3⟩
    · have hau1 : c1.authed = false := by
        cases hx : c1.authed
        · rfl
        · rw [h6 hx] at n1; simp at n1
      have hp : c1.props.authid = none ∧ c1.props.authzid = none := by
        rcases h7 with h7 | ⟨_, h7, h8⟩ | ⟨h7, _⟩
        · rw [h7]; exact ⟨n2, n3⟩
        · exact ⟨h7, h8⟩
        · rw [hh.1] at h7; simp at h7
      have hne : (a == SaslAnswer.complete) = false := by simpa using h4
      obtain ⟨m, p, hpr, hid⟩ := ih c1 cf as' h2 hh.2 (by rw [hne] at hc; simpa using hc) hau1 hp.1 hp.2 (by rw [h5, n4]) hau
      exact ⟨m, p, aux_sa_proved_cons cfg c c1 e a es as' m p h1 n4 hpr, hid⟩

/-- **C55**, partial: the peer never sends a wrong proof for an identity, and one negotiation is completed at most. There may
be any number of attempts refused by the application, of errors, and of channels. Missing: wrong proofs, and messages
sent after the negotiation was completed; see the violations. -/
theorem C55_identity_partial (cfg : SaslConfig) (es : List SaslEvent) (as : List SaslAnswer) (c : SaslServer)
    (h : SaslServer.init.run cfg es = some (as, c)) (hh : es.all saslHonest = true) (hc : as.count .complete ≤ 1)
    (ha : c.isAuthenticated = true) :
    ∃ m p, saslProved cfg es as m p ∧ (c.props.authid, c.props.authzid) = saslIdentity (saslShown m p) := by
  have := aux_sa_before cfg es _ c as h hh hc rfl rfl rfl rfl ?_
  · obtain ⟨m, p, h1, h2⟩ := this
    exact ⟨m, p, aux_sa_proved_init cfg es as m p h1, h2⟩
  unfold SaslServer.isAuthenticated at ha
  simp only [Bool.and_eq_true] at ha
  exact ha.1

/-- Two attempts refused by the application, the second with other ids; then one that is accepted. -/
example : let cfg : SaslConfig := ⟨fun _ p => p.authid = some 1, fun m => m = .plain⟩
    let es : List SaslEvent := [.start .plain true (.blob (.ask ⟨some 7, some 9, none, none⟩ true)), .start .cram true (.blob .more),
      .frame (.blob (.ask ⟨some 8, none, none, none⟩ true)), .start .plain true (.blob (.ask ⟨some 1, some 2, none, none⟩ true))]
    (SaslServer.init.run cfg es).map (fun r => (r.1, r.2.isAuthenticated, r.2.props.authid, r.2.props.authzid)) =
      some ([.failure, .more, .failure, .complete], true, some 1, some 2) ∧ es.all saslHonest = true := by decide

/-- Whatever the peer does: a connection is authenticated only if a negotiation was completed with properties the
application accepted, and a right proof. -/
theorem C55_somebody_accepted (cfg : SaslConfig) (es : List SaslEvent) (as : List SaslAnswer) (c : SaslServer)
    (h : SaslServer.init.run cfg es = some (as, c)) (ha : c.isAuthenticated = true) : ∃ m p, saslProved cfg es as m p := by
  have H : ∀ (es : List SaslEvent) (c cf : SaslServer) (as : List SaslAnswer), c.run cfg es = some (as, cf) → c.authed = false →
      c.masked = false → cf.authed = true → ∃ m p, aux_sa_Proved c.session cfg es as m p := by
    intro es
    induction es with
    | nil => intro c cf as h h1 _ h2; simp [SaslServer.run] at h; obtain ⟨_, h⟩ := h; subst h; rw [h1] at h2; simp at h2
    | cons e es ih =>
      intro c cf as h n1 n4 hau
      obtain ⟨a, c1, as', h1, h2, h3⟩ := aux_sa_run_cons cfg c cf e es as h
      subst h3
      rcases aux_sa_step cfg c c1 e a h1 with ⟨h4, h5, h6, m, p, proof, h7, h8, h9, h10, h11⟩ | ⟨h4, h5, h6, h7⟩
      · subst h4
        exact ⟨m, p, aux_sa_proved_now cfg c e es as' m p proof h7 h8 h9 h10⟩
      · have hau1 : c1.authed = false := by
          cases hx : c1.authed
          · rfl
          · rw [h6 hx] at n1; simp at n1
        obtain ⟨m, p, hpr⟩ := ih c1 cf as' h2 hau1 (by rw [h5, n4]) hau
        exact ⟨m, p, aux_sa_proved_cons cfg c c1 e a es as' m p h1 n4 hpr⟩
  have := H es _ c as h rfl rfl ?_
  · obtain ⟨m, p, h1⟩ := this
    exact ⟨m, p, aux_sa_proved_init cfg es as m p h1⟩
  unfold SaslServer.isAuthenticated at ha
  simp only [Bool.and_eq_true] at ha
  exact ha.1

/-- On an authenticated connection no further negotiation is started: the request is refused and changes nothing. -/
theorem C55_no_second_start (cfg : SaslConfig) (es : List SaslEvent) (as : List SaslAnswer) (c : SaslServer)
    (h : SaslServer.init.run cfg es = some (as, c)) (ha : c.isAuthenticated = true) (m : SaslMech) (sup : Bool) (i : SaslInput) :
    c.step cfg (.start m sup i) = some (.failure, c) := by
  have H : ∀ (es : List SaslEvent) (c cf : SaslServer) (as : List SaslAnswer), c.run cfg es = some (as, cf) →
      (c.authed = true → c.masked = true) → cf.authed = true → cf.masked = true := by
    intro es
    induction es with
    | nil => intro c cf as h h1; simp [SaslServer.run] at h; obtain ⟨_, h⟩ := h; subst h; exact h1
    | cons e es ih =>
      intro c cf as h n1
      obtain ⟨a, c1, as', h1, h2, h3⟩ := aux_sa_run_cons cfg c cf e es as h
      refine ih c1 cf as' h2 ?_
      rcases aux_sa_step cfg c c1 e a h1 with ⟨h4, h5, h6, _⟩ | ⟨h4, h5, h6, h7⟩
      · exact fun _ => h6
      · rw [h5]; exact fun hx => n1 (h6 hx)
  unfold SaslServer.isAuthenticated at ha
  simp only [Bool.and_eq_true] at ha
  simp [SaslServer.step, H es _ c as h (by simp [SaslServer.init]) ha.1]

/-- C55, malformed message: a message that is not well formed on an open SASL channel is answered with a failure and ends the authentication:
no identity is reported. -/
theorem C55_malformed_ends (cfg : SaslConfig) (c : SaslServer) (h : c.chans ≠ []) :
    ∃ c', c.step cfg (.frame .malformed) = some (.failure, c') ∧ c'.isAuthenticated = false ∧ c'.props.authid = none ∧
      c'.props.authzid = none := by
  refine ⟨c.fail, by simp [SaslServer.step, h, SaslServer.iterate], ?_, rfl, rfl⟩
  simp [SaslServer.isAuthenticated, SaslServer.fail]

/-- A connection that was authenticated with an open channel. -/
example : ∃ as c, SaslServer.init.run aux_sa_cfg [.start .cram true (.blob .more), .frame (.blob (.ask ⟨some 1, none, none, none⟩ true))] =
    some (as, c) ∧ c.chans ≠ [] ∧ c.isAuthenticated = true := ⟨_, _, rfl, by decide, by decide⟩

/-- Closing the last channel of the mechanism used ends the authentication. -/
theorem C55_closed_channel (cfg : SaslConfig) (c : SaslServer) (m : SaslMech) (hm : c.method = some m) (h1 : c.chans = [m]) :
    ∃ c', c.step cfg (.close m) = some (.null, c') ∧ c'.isAuthenticated = false := by
  refine ⟨_, rfl, ?_⟩
  simp [SaslServer.isAuthenticated, hm, h1]

example : ∃ c : SaslServer, c.isAuthenticated = true ∧ c.method = some .plain ∧ c.chans = [.plain] :=
  ⟨⟨true, some .plain, ⟨some 1, none, none, none⟩, .running .plain, true, [.plain]⟩, by decide⟩

/-! ### No peer can crash the listener -/

/-- The property: whatever messages arrive, the listener goes on. -/
def C56_statement : Prop :=
  ∀ (cfg : SaslConfig) (es : List SaslEvent), SaslServer.init.run cfg es ≠ none

/-- **Violation**: a message with `status='abort'` crashes the listener. -/
theorem C56_abort_crashes (cfg : SaslConfig) (m : SaslMech) :
    SaslServer.init.run cfg [.start m true (.blob .more), .frame .abort] = none := by
  rfl

/-- **Violation**: so does any message on a first SASL channel after the start of a second one was aborted, or could not be
started in gsasl. -/
theorem C56_second_start_crashes (cfg : SaslConfig) (m n : SaslMech) (t : SaslTurn) :
    SaslServer.init.run cfg [.start m true (.blob .more), .start n true .abort, .frame (.blob t)] = none ∧
    ∀ i, SaslServer.init.run cfg [.start m true (.blob .more), .start n false i, .frame (.blob t)] = none :=
  ⟨rfl, fun _ => rfl⟩

theorem C56_statement_false : ¬ C56_statement := fun h => h aux_sa_cfg _ (C56_abort_crashes aux_sa_cfg .plain)

/-- Neither an abort nor a mechanism unknown to gsasl. -/
def aux_sa_plainEvent : SaslEvent → Bool
  | .start _ sup i => sup && i ≠ .abort
  | .frame i => i ≠ .abort
  | .close _ => true

/-- **C56**, partial: without aborts, and with mechanisms known to gsasl, nothing crashes the listener. Missing: see the
violations. -/
theorem C56_no_crash_partial (cfg : SaslConfig) (es : List SaslEvent) (hp : es.all aux_sa_plainEvent = true) :
    SaslServer.init.run cfg es ≠ none := by
  have HI : ∀ (c : SaslServer) (i : SaslInput) (m : SaslMech), i ≠ .abort → c.session = .running m →
      ∃ ok a c', c.iterate cfg i = some (ok, a, c') ∧ a ≠ .null ∧ c'.session = .running m := by
    intro c i m hi hs
    cases i with
    | abort => exact absurd rfl hi
    | malformed => exact ⟨_, _, _, rfl, by simp, hs⟩
    | blob t =>
      simp only [SaslServer.iterate, hs]
      cases t with
      | more => exact ⟨_, _, _, rfl, by simp, hs⟩
      | error => exact ⟨_, _, _, rfl, by simp, hs⟩
      | ask p proof =>
        have hv : (c.validate cfg m (m.relevant p)).2.session = .running m := by
          unfold SaslServer.validate; split <;> exact hs
        dsimp only
        split
        · exact ⟨_, _, _, rfl, by simp, hv⟩
        · exact ⟨_, _, _, rfl, by simp, hv⟩
  have H : ∀ (es : List SaslEvent) (c : SaslServer), es.all aux_sa_plainEvent = true →
      (c.chans = [] ∨ ∃ m, c.session = .running m) → c.run cfg es ≠ none := by
    intro es
    induction es with
    | nil => intro c _ _; simp [SaslServer.run]
    | cons e es ih =>
      intro c hp hc
      simp only [List.all_cons, Bool.and_eq_true] at hp
      suffices hs : ∃ a c1, c.step cfg e = some (a, c1) ∧ (c1.chans = [] ∨ ∃ m, c1.session = .running m) by
        obtain ⟨a, c1, h1, h2⟩ := hs
        have := ih c1 hp.2 h2
        simp only [SaslServer.run, h1]
        split
        · next h3 => exact absurd h3 this
        · simp
      cases e with
      | close m =>
        refine ⟨_, _, rfl, ?_⟩
        rcases hc with hc | hc
        · left; simp [hc]
        · exact .inr hc
      | start m sup i =>
        have hsup : sup = true := by have := hp.1; simp [aux_sa_plainEvent] at this; exact this.1
        have hi : i ≠ .abort := by have := hp.1; simp [aux_sa_plainEvent] at this; exact this.2
        subst hsup
        simp only [SaslServer.step]
        by_cases hm : c.masked = true
        · rw [if_pos hm]; exact ⟨_, _, rfl, hc⟩
        · rw [if_neg hm]
          obtain ⟨ok, a, c', h1, h2, h3⟩ := HI { c with session := .running m } i m hi rfl
          rw [h1]
          refine ⟨_, _, rfl, .inr ⟨m, ?_⟩⟩
          split <;> exact h3
      | frame i =>
        have hi : i ≠ .abort := by have := hp.1; simpa [aux_sa_plainEvent] using this
        simp only [SaslServer.step]
        by_cases hch : c.chans = []
        · rw [if_pos hch]; exact ⟨_, _, rfl, hc⟩
        · rw [if_neg hch]
          rcases hc with hc | ⟨m, hm⟩
          · exact absurd hc hch
          · obtain ⟨ok, a, c', h1, h2, h3⟩ := HI c i m hi hm
            rw [h1]
            cases a with
            | null => exact absurd rfl h2
            | more => exact ⟨_, _, rfl, .inr ⟨m, h3⟩⟩
            | complete => exact ⟨_, _, rfl, .inr ⟨m, h3⟩⟩
            | failure => exact ⟨_, _, rfl, .inr ⟨m, h3⟩⟩
  exact H es _ hp (.inl rfl)

example : [SaslEvent.start .plain true .malformed, .start .cram true (.blob .more), .frame .malformed, .frame (.blob .error),
    .close .cram, .frame (.blob .more)].all aux_sa_plainEvent = true := by decide

/-! ### The initiator is told the outcome once -/

/-- The property: when the authentication has ended, the application was notified exactly once; success is notified only
if the mechanism accepted the last message of the listener; a connection authenticated already stays so. -/
def C57_statement : Prop :=
  ∀ (s : SaslStart) (rounds : List SaslRound) (notes : List Bool) (authed : Bool),
    saslStartAuth s rounds = some (notes, authed) →
    notes.length = 1 ∧ (notes = [true] → ∃ r ∈ rounds, r.verdict = .ok) ∧ (s.authed = true → authed = true)

/-- A start that gets as far as the exchange of messages. -/
def aux_sa_go : SaslStart := ⟨true, true, false, true, true, true, true, true⟩

/-- **Violation**: after a reply that cannot be parsed the application is notified twice. -/
theorem C57_notified_twice : saslStartAuth aux_sa_go [⟨.malformed, .error, false, false⟩] = some ([false, false], false) := rfl

/-- **Violation**: the status `complete` is believed although the mechanism refuses what came with it: DIGEST-MD5 does not
verify the listener. -/
theorem C57_not_verified : saslStartAuth aux_sa_go [⟨.blob true, .error, false, false⟩] = some ([true], true) := rfl

/-- **Violation**: starting again on an authenticated connection drops its authentication. -/
theorem C57_dropped (rounds : List SaslRound) :
    saslStartAuth { aux_sa_go with authed := true } rounds = some ([false], false) := rfl

theorem C57_statement_false : ¬ C57_statement := fun h => absurd (h _ _ _ _ C57_notified_twice).1 (by decide)

/-- **C57**, partial: if all replies can be parsed, exactly one notification is made, it says whether the connection is now
authenticated, and success means that the listener said `complete` or the mechanism is satisfied; an error of the
listener is never taken for success. Missing: see the violations. -/
theorem C57_once_partial (s : SaslStart) (rounds : List SaslRound) (notes : List Bool) (authed : Bool)
    (h : saslStartAuth s rounds = some (notes, authed)) (hm : ∀ r ∈ rounds, r.reply ≠ .malformed) :
    notes = [authed] ∧ (authed = true → s.ok = true ∧ s.family = true ∧ s.authed = false ∧ s.sane = true ∧ s.channel = true ∧
      ∃ before r after, rounds = before ++ r :: after ∧ (∀ q ∈ before, q.reply = .blob false ∧ q.sent = true) ∧
        (r.reply = .blob true ∨ (r.reply = .blob false ∧ r.verdict = .ok))) := by
  have HS : ∀ rounds : List SaslRound, (∀ r ∈ rounds, r.reply ≠ .malformed) → ∀ ok ns, saslSteps rounds = some (ok, ns) →
      ns = [] ∧ (ok = true → ∃ before r after, rounds = before ++ r :: after ∧ (∀ q ∈ before, q.reply = .blob false ∧ q.sent = true) ∧
        (r.reply = .blob true ∨ (r.reply = .blob false ∧ r.verdict = .ok))) := by
    intro rounds
    induction rounds with
    | nil => intro _ ok ns h; simp [saslSteps] at h
    | cons r rs ih =>
      intro hm ok ns h
      have hr := hm r (by simp)
      rw [saslSteps] at h
      cases hrep : r.reply with
      | null => rw [hrep] at h; simp at h; obtain ⟨h1, h2⟩ := h; subst h1 h2; simp
      | error => rw [hrep] at h; simp at h; obtain ⟨h1, h2⟩ := h; subst h1 h2; simp
      | malformed => exact absurd hrep hr
      | blob complete =>
        rw [hrep] at h
        dsimp only at h
        cases complete with
        | true =>
          simp at h; obtain ⟨h1, h2⟩ := h; subst h1 h2
          exact ⟨rfl, fun _ => ⟨[], r, rs, rfl, by simp, .inl hrep⟩⟩
        | false =>
          simp only [Bool.false_eq_true, if_false] at h
          split at h
          · split at h
            · next hsent =>
              obtain ⟨h1, h2⟩ := ih (fun q hq => hm q (by simp [hq])) ok ns h
              refine ⟨h1, fun hok => ?_⟩
              obtain ⟨b, q, a, e1, e2, e3⟩ := h2 hok
              refine ⟨r :: b, q, a, by rw [e1]; rfl, ?_, e3⟩
              intro x hx
              rcases List.mem_cons.mp hx with hx | hx
              · subst hx; exact ⟨hrep, hsent⟩
              · exact e2 x hx
            · simp at h; obtain ⟨h1, h2⟩ := h; subst h1 h2; simp
          · split at h
            · next hv =>
              simp at h; obtain ⟨h1, h2⟩ := h; subst h1 h2
              exact ⟨rfl, fun _ => ⟨[], r, rs, rfl, by simp, .inr ⟨hrep, hv⟩⟩⟩
            · simp at h; obtain ⟨h1, h2⟩ := h; subst h1 h2; simp
  unfold saslStartAuth at h
  repeat' (split at h)
  all_goals first
    | (simp only [Option.some.injEq, Prod.mk.injEq] at h
       obtain ⟨h1, h2⟩ := h
       subst h1 h2
       first
        | (exact ⟨rfl, by simp⟩)
        | skip)
    | (simp at h)
  · next a1 a2 a3 a4 a5 a6 a7 a8 _ ns hs =>
    obtain ⟨h1, h2⟩ := HS rounds hm _ _ hs
    subst h1
    refine ⟨rfl, fun _ => ⟨by simpa using a1, by simpa using a2, by simpa using a3, by simpa using a4, by simpa using a7, h2 rfl⟩⟩
  · next ns hs =>
    obtain ⟨h1, h2⟩ := HS rounds hm _ _ hs
    subst h1
    exact ⟨rfl, by simp⟩

example : saslStartAuth aux_sa_go [⟨.blob false, .more, true, true⟩, ⟨.blob false, .ok, true, true⟩, ⟨.blob true, .ok, false, false⟩] =
    some ([true], true) := rfl

end Verif.Props
