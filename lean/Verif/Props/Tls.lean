import Verif.Spec.Tls
import Verif.Props.Sasl
/-!
# C58-C62: TLS
-/
namespace Verif.Props
open Verif.Model Verif.Spec

/-! ### Secured means that the handshake was completed -/

/-- The property, for the listener and for the initiator. -/
def C58_statement : Prop :=
  (∀ es : List TlsEvent, (TlsServer.init.run es).2.conn.secured = true → tlsServerDone es (TlsServer.init.run es).1) ∧
  (∀ (e : TlsInit) (c : TlsConn) (o : TlsOutcome), c.ok = true → c.secured = false → (tlsStart e c).1 = some o →
    ∃ n, o.notes = [(n, n.secured)] ∧ (n.secured = true → sslDone e.calls ∧ e.cert = true ∧ e.post ≠ some false))

/-- What can be said after one event about a connection that is secured. -/
theorem aux_tl_step (s : TlsServer) (e : TlsEvent) (hu : tlsUsual e) :
    ((s.step e).1.conn.secured = true → s.conn.secured = true ∨
      (s.phase ≠ .running ∧ (s.step e).2 = .secured ∧ ∃ ctx call post, e = .readable ctx call post ∧ 0 < call.ret ∧ post ≠ some false)) ∧
    ((s.step e).1.phase ≠ .running → s.phase ≠ .running ∨ (s.step e).2 = .proceed) := by
  cases e with
  | start a b c =>
    simp only [TlsServer.step]
    split
    · exact ⟨fun h => .inl h, fun h => .inl h⟩
    · exact ⟨fun h => .inl h, fun h => .inr rfl⟩
  | readable ctx call post =>
    simp only [tlsUsual] at hu
    simp only [TlsServer.step]
    cases hp : s.phase with
    | running => dsimp only; split <;> simp [hp]
    | prepare => dsimp only; split <;> simp [TlsConn.renew]
    | accepting =>
      dsimp only
      by_cases hr : call.ret = -1
      · rw [if_pos hr]
        cases he : call.err <;> simp
      · rw [if_neg hr]
        have h0 : 0 < call.ret := by omega
        rcases post with _ | b
        · exact ⟨fun _ => .inr ⟨by simp, rfl, ctx, call, none, rfl, h0, by simp⟩, by simp⟩
        · cases b
          · simp
          · exact ⟨fun _ => .inr ⟨by simp, rfl, ctx, call, some true, rfl, h0, by simp⟩, by simp⟩

theorem aux_tl_run (es : List TlsEvent) : ∀ s : TlsServer, (∀ e ∈ es, tlsUsual e) →
    (s.run es).2.conn.secured = true → s.conn.secured = true ∨
      ∃ i : Nat, (s.run es).1[i]? = some .secured ∧
        (s.phase ≠ .running ∨ ∃ k : Nat, k < i ∧ (s.run es).1[k]? = some .proceed) ∧
        ∃ context call post, es[i]? = some (.readable context call post) ∧ 0 < call.ret ∧ post ≠ some false := by
  induction es with
  | nil => intro s _ h; exact .inl h
  | cons e es ih =>
    intro s hu h
    obtain ⟨hs1, hs2⟩ := aux_tl_step s e (hu e (by simp))
    unfold TlsServer.run at h ⊢
    dsimp only at h ⊢
    rcases ih (s.step e).1 (fun x hx => hu x (by simp [hx])) h with h1 | ⟨i, h1, h2, h3⟩
    · rcases hs1 h1 with h2 | ⟨h2, h3, ctx, call, post, rfl, h5⟩
      · exact .inl h2
      · exact .inr ⟨0, by simp [h3], .inl h2, ctx, call, post, by simp, h5⟩
    · refine .inr ⟨i + 1, by simpa using h1, ?_, by simpa using h3⟩
      rcases h2 with h2 | ⟨k, hk, h2⟩
      · rcases hs2 h2 with h4 | h4
        · exact .inl h4
        · exact .inr ⟨0, by omega, by simp [h4]⟩
      · exact .inr ⟨k + 1, by omega, by simpa using h2⟩

/-- The listener: a secured connection had a complete handshake, provided that `SSL_accept` never returns 0 (or less than
-1). Missing: that case, see `C58_accept_zero`. -/
theorem C58_listener_partial (es : List TlsEvent) (hu : ∀ e ∈ es, tlsUsual e)
    (h : (TlsServer.init.run es).2.conn.secured = true) : tlsServerDone es (TlsServer.init.run es).1 := by
  rcases aux_tl_run es _ hu h with h1 | ⟨i, h1, h2, h3⟩
  · simp [TlsServer.init, TlsConn.plain] at h1
  · rcases h2 with h2 | ⟨k, hk, h2⟩
    · simp [TlsServer.init] at h2
    · exact ⟨k, i, hk, h2, h1, h3⟩

/-- A handshake in two rounds. -/
def aux_tl_good : List TlsEvent :=
  [.start true true true, .readable true ⟨1, .other⟩ none, .readable true ⟨-1, .wantRead⟩ none, .readable true ⟨1, .other⟩ (some true),
   .readable true ⟨1, .other⟩ none]

example : (∀ e ∈ aux_tl_good, tlsUsual e ∧ tlsNoFailure e) ∧
    TlsServer.init.run aux_tl_good =
      ([.proceed, .handshake, .handshake, .secured, .session .tls], ⟨⟨true, .tls, true, false⟩, .running, true⟩) := by
  refine ⟨?_, by decide⟩
  intro e he
  simp [aux_tl_good] at he
  rcases he with rfl | rfl | rfl | rfl | rfl <;> simp [tlsUsual, tlsNoFailure]

/-- **Violation**: the peer sends a close notification in place of its part of the handshake, `SSL_accept` returns 0, and
the connection is reported as secured. -/
theorem C58_accept_zero :
    TlsServer.init.run [.start true true true, .readable true ⟨0, .other⟩ none, .readable true ⟨0, .other⟩ none] =
      ([.proceed, .handshake, .secured], ⟨⟨true, .tls, true, false⟩, .running, true⟩) := by decide

theorem C58_statement_false : ¬ C58_statement := by
  rintro ⟨h, _⟩
  obtain ⟨k, i, _, _, _, c, x, p, hm, h2, _⟩ :=
    h [.start true true true, .readable true ⟨0, .other⟩ none, .readable true ⟨0, .other⟩ none] (by decide)
  have hm := List.mem_of_getElem? hm
  simp at hm
  obtain ⟨_, rfl, _⟩ := hm
  simp at h2

theorem aux_tl_connect (c : TlsConn) (calls : List SslCall) :
    (∃ c', tlsConnect c calls = some (true, c')) ↔ sslDone calls := by
  induction calls with
  | nil =>
    simp only [tlsConnect, reduceCtorEq, exists_false, false_iff]
    rintro ⟨b, x, a, h, _⟩
    simp at h
  | cons x xs ih =>
    unfold tlsConnect
    by_cases hx : 0 < x.ret
    · rw [if_pos hx]
      exact ⟨fun _ => ⟨[], x, xs, rfl, hx, by simp⟩, fun _ => ⟨c, rfl⟩⟩
    · rw [if_neg hx]
      have hk : (x.err = .wantRead ∨ x.err = .wantWrite) → (sslDone xs ↔ sslDone (x :: xs)) := by
        intro hw
        constructor
        · rintro ⟨b, y, a, h, h1, h2⟩
          refine ⟨x :: b, y, a, by simp [h], h1, ?_⟩
          intro z hz
          rcases List.mem_cons.1 hz with rfl | hz
          · exact ⟨by omega, hw⟩
          · exact h2 z hz
        · rintro ⟨b, y, a, h, h1, h2⟩
          cases b with
          | nil => simp at h; obtain ⟨rfl, _⟩ := h; omega
          | cons z b =>
            simp at h
            obtain ⟨rfl, h⟩ := h
            exact ⟨b, y, a, h, h1, fun w hw => h2 w (by simp [hw])⟩
      have hn : ¬ (x.err = .wantRead ∨ x.err = .wantWrite) → ¬ sslDone (x :: xs) := by
        rintro hw ⟨b, y, a, h, h1, h2⟩
        cases b with
        | nil => simp at h; obtain ⟨rfl, _⟩ := h; omega
        | cons z b =>
          simp at h
          obtain ⟨rfl, h⟩ := h
          exact hw (h2 x (by simp)).2
      cases he : x.err with
      | wantRead => dsimp only; rw [← hk (.inl he)]; exact ih
      | wantWrite => dsimp only; rw [← hk (.inr he)]; exact ih
      | syscall => have := hn (by simp [he]); simpa using this
      | other => have := hn (by simp [he]); simpa using this

theorem aux_tl_connect_same (c c' : TlsConn) (calls : List SslCall) (h : tlsConnect c calls = some (true, c')) : c' = c := by
  induction calls with
  | nil => simp [tlsConnect] at h
  | cons x xs ih =>
    unfold tlsConnect at h
    split at h
    · simp at h; exact h.symm
    · split at h
      · exact ih h
      · exact ih h
      · simp at h
      · simp at h

theorem aux_tl_connect_fail (c c' : TlsConn) (calls : List SslCall) (h : tlsConnect c calls = some (false, c')) :
    (c' = { c with ok := false } ∧ ∃ x ∈ calls, x.err = .syscall) ∨ (c' = { c with io := .clear } ∧ ∃ x ∈ calls, x.err = .other ∧ x.ret ≤ 0) := by
  induction calls with
  | nil => simp [tlsConnect] at h
  | cons x xs ih =>
    unfold tlsConnect at h
    split at h
    · simp at h
    · split at h
      · rcases ih h with ⟨h1, y, hy, h2⟩ | ⟨h1, y, hy, h2⟩
        · exact .inl ⟨h1, y, by simp [hy], h2⟩
        · exact .inr ⟨h1, y, by simp [hy], h2⟩
      · rcases ih h with ⟨h1, y, hy, h2⟩ | ⟨h1, y, hy, h2⟩
        · exact .inl ⟨h1, y, by simp [hy], h2⟩
        · exact .inr ⟨h1, y, by simp [hy], h2⟩
      · next he => simp at h; exact .inl ⟨h.symm, x, by simp, he⟩
      · next hx he => simp at h; exact .inr ⟨h.symm, x, by simp, he, by omega⟩

/-- The initiator: there is one notification; it says success, and the connection is marked, exactly if the listener
agreed, the handshake was completed, a certificate was shown, the check of the application did not object and greetings
were exchanged; such a connection uses TLS to read and write, works, and sends SEQ frames. -/
theorem C58_initiator (e : TlsInit) (c : TlsConn) (o : TlsOutcome) (hok : c.ok = true) (hs : c.secured = false)
    (h : (tlsStart e c).1 = some o) :
    ∃ n, o.notes = [(n, n.secured)] ∧
      (n.secured = true ↔ e.answer = .proceed ∧ e.renewed = true ∧ e.context = true ∧ sslDone e.calls ∧ e.cert = true ∧
        e.post ≠ some false ∧ e.greetSend = true ∧ e.greetSent = true ∧ e.greetRead = true) ∧
      (n.secured = true → n = ⟨true, .tls, true, false⟩ ∧ o.new = some n ∧ o.old.ok = false) := by
  obtain ⟨ok, io, sec, off⟩ := c
  dsimp only at hok hs
  subst hok hs
  simp only [tlsStart, Bool.not_true, Bool.false_eq_true, if_false] at h
  unfold tlsNegotiate at h
  dsimp only at h
  by_cases ha : e.answer = .proceed
  · rw [if_neg (by simp [ha])] at h
    cases hr : e.renewed with
    | false => simp [hr] at h; subst h; exact ⟨_, rfl, by simp_all, by simp_all⟩
    | true =>
      simp only [hr, Bool.not_true, Bool.false_eq_true, if_false, TlsConn.renew] at h
      unfold tlsActivate at h
      cases hc : e.context with
      | false => simp [hc] at h; subst h; exact ⟨_, rfl, by simp_all, by simp_all⟩
      | true =>
        simp only [hc, Bool.not_true, Bool.false_eq_true, if_false] at h
        cases hk : tlsConnect ⟨true, .tls, false, false⟩ e.calls with
        | none => simp only [hk] at h; simp at h
        | some r =>
          obtain ⟨b, n⟩ := r
          have hd := aux_tl_connect ⟨true, .tls, false, false⟩ e.calls
          cases b with
          | false =>
            have hnd : ¬ sslDone e.calls := by rw [← hd]; rintro ⟨c', h'⟩; rw [hk] at h'; simp at h'
            rcases aux_tl_connect_fail _ _ _ hk with ⟨h1, _⟩ | ⟨h1, _⟩ <;>
              (subst h1; simp only [hk] at h; simp at h; subst h; exact ⟨_, rfl, by simp [hnd], by simp⟩)
          | true =>
            have hdn : sslDone e.calls := hd.1 ⟨n, hk⟩
            have hn := aux_tl_connect_same _ _ _ hk
            subst hn
            simp only [hk] at h
            cases hce : e.cert with
            | false => simp [hce] at h; subst h; exact ⟨_, rfl, by simp_all, by simp_all⟩
            | true =>
              simp only [hce, Bool.not_true, Bool.false_eq_true, if_false] at h
              cases hp : e.post with
              | none =>
                simp only [hp] at h
                split at h
                · next hg => simp at h; subst h; exact ⟨_, rfl, by simp_all, by simp_all⟩
                · next hg => simp at h; subst h; exact ⟨_, rfl, by simp_all, by simp_all⟩
              | some v =>
                cases v with
                | false => simp [hp] at h; subst h; exact ⟨_, rfl, by simp_all, by simp_all⟩
                | true =>
                  simp only [hp] at h
                  split at h
                  · next hg => simp at h; subst h; exact ⟨_, rfl, by simp_all, by simp_all⟩
                  · next hg => simp at h; subst h; exact ⟨_, rfl, by simp_all, by simp_all⟩
  · rw [if_pos ha] at h
    simp at h; subst h; exact ⟨_, rfl, by simp [ha], by simp⟩

/-- A negotiation that works. -/
def aux_tl_works : TlsInit := ⟨.proceed, true, true, [⟨-1, .wantRead⟩, ⟨1, .other⟩], true, some true, true, true, true, true⟩

example : (tlsStart aux_tl_works .plain).1 =
    some ⟨⟨false, .clear, false, true⟩, some ⟨true, .tls, true, false⟩, [(⟨true, .tls, true, false⟩, true)]⟩ := by decide

/-- A connection that is secured refuses further TLS channels, and everything read later is read with TLS; it stays
secured. -/
theorem C58_stays (es : List TlsEvent) : ∀ s : TlsServer, s.conn = ⟨true, .tls, true, false⟩ → s.phase = .running →
    (s.run es).2 = s ∧ ∀ o ∈ (s.run es).1, o = .refused ∨ o = .session .tls := by
  induction es with
  | nil => intro s _ _; simp [TlsServer.run]
  | cons e es ih =>
    intro s hc hp
    have h1 : (s.step e).1 = s ∧ ((s.step e).2 = .refused ∨ (s.step e).2 = .session .tls) := by
      cases e with
      | start a b c => simp [TlsServer.step, hc]
      | readable a b c => simp [TlsServer.step, hc, hp]
    obtain ⟨h2, h3⟩ := ih s hc hp
    unfold TlsServer.run
    dsimp only
    rw [h1.1]
    refine ⟨h2, ?_⟩
    intro o ho
    rcases List.mem_cons.1 ho with rfl | ho
    · exact h1.2
    · exact h3 o ho

example : (TlsServer.init.run aux_tl_good).2.conn = ⟨true, .tls, true, false⟩ ∧ (TlsServer.init.run aux_tl_good).2.phase = .running := by
  decide

/-! ### No way back to clear text -/

/-- The property: once `<proceed />` was sent, the listener takes no octet that was not protected as a part of the
session; the initiator that got it ends with a secured connection, or with none that works. -/
def C59_statement : Prop :=
  (∀ (es : List TlsEvent) (i j : Nat), i < j → (TlsServer.init.run es).1[i]? = some .proceed →
    (TlsServer.init.run es).1[j]? ≠ some (.session .clear)) ∧
  (∀ (e : TlsInit) (c : TlsConn) (o : TlsOutcome), c.ok = true → c.secured = false → e.answer = .proceed →
    (tlsStart e c).1 = some o → ∀ n st, (n, st) ∈ o.notes → n.ok = true → n.secured = true)

/-- **Violation**: the handshake fails, and the listener goes on in clear text. -/
theorem C59_listener_falls_back :
    TlsServer.init.run [.start true true true, .readable true ⟨-1, .other⟩ none, .readable true ⟨-1, .other⟩ none,
        .readable true ⟨-1, .other⟩ none] =
      ([.proceed, .handshake, .failure, .session .clear], ⟨⟨true, .clear, false, false⟩, .running, false⟩) := by decide

/-- **Violation**: the same for the initiator. The application gets a working connection, in clear text. -/
theorem C59_initiator_falls_back :
    (tlsStart ⟨.proceed, true, true, [⟨-1, .other⟩], true, none, true, true, true, true⟩ .plain).1.map (·.notes) =
      some [(⟨true, .clear, false, false⟩, false)] := by decide

theorem C59_statement_false : ¬ C59_statement := by
  rintro ⟨_, h⟩
  have := h ⟨.proceed, true, true, [⟨-1, .other⟩], true, none, true, true, true, true⟩ .plain _ rfl rfl rfl rfl
    ⟨true, .clear, false, false⟩ false (by decide) rfl
  simp at this

/-- What holds at the listener after `<proceed />`. -/
def aux_tl_after (s : TlsServer) : Prop :=
  s.phase = .prepare ∨ (s.phase = .accepting ∧ s.conn.io = .tls) ∨ (s.phase = .running ∧ (s.conn.ok = false ∨ s.conn.io = .tls))

theorem aux_tl_after_step (s : TlsServer) (e : TlsEvent) (hn : tlsNoFailure e) (h : aux_tl_after s) :
    aux_tl_after (s.step e).1 ∧ (s.step e).2 ≠ .session .clear := by
  cases e with
  | start a b c =>
    simp only [TlsServer.step]
    split
    · exact ⟨h, by simp⟩
    · exact ⟨.inl rfl, by simp⟩
  | readable ctx call post =>
    simp only [tlsNoFailure] at hn
    unfold TlsServer.step aux_tl_after at *
    grind [TlsConn.renew]

theorem aux_tl_after_run (es : List TlsEvent) : ∀ s : TlsServer, (∀ e ∈ es, tlsNoFailure e) → aux_tl_after s →
    TlsObs.session .clear ∉ (s.run es).1 := by
  induction es with
  | nil => intro s _ _; simp [TlsServer.run]
  | cons e es ih =>
    intro s hn h
    obtain ⟨h1, h2⟩ := aux_tl_after_step s e (hn e (by simp)) h
    have h3 := ih _ (fun x hx => hn x (by simp [hx])) h1
    unfold TlsServer.run
    dsimp only
    intro hm
    rcases List.mem_cons.1 hm with hm | hm
    · exact h2 hm.symm
    · exact h3 hm

theorem aux_tl_proceed (s : TlsServer) (e : TlsEvent) (h : (s.step e).2 = .proceed) : aux_tl_after (s.step e).1 := by
  cases e with
  | start a b c =>
    simp only [TlsServer.step] at h ⊢
    split
    · next hc => rw [if_pos hc] at h; simp at h
    · exact .inl rfl
  | readable ctx call post =>
    exfalso
    revert h
    unfold TlsServer.step
    dsimp only
    repeat' split
    all_goals simp

/-- The listener takes no clear text after `<proceed />`, unless OpenSSL reports an error of the handshake. Missing: that
case, see `C59_listener_falls_back`. -/
theorem C59_listener_partial (es : List TlsEvent) (hn : ∀ e ∈ es, tlsNoFailure e) : ∀ (s : TlsServer) (i j : Nat), i < j →
    (s.run es).1[i]? = some .proceed → (s.run es).1[j]? ≠ some (.session .clear) := by
  induction es with
  | nil => intro s i j _ h; simp [TlsServer.run] at h
  | cons e es ih =>
    intro s i j hij h
    unfold TlsServer.run at h ⊢
    dsimp only at h ⊢
    cases j with
    | zero => omega
    | succ j =>
      rw [List.getElem?_cons_succ]
      cases i with
      | zero =>
        simp only [List.getElem?_cons_zero, Option.some.injEq] at h
        intro hj
        exact aux_tl_after_run es _ (fun x hx => hn x (by simp [hx])) (aux_tl_proceed s e h) (List.mem_of_getElem? hj)
      | succ i =>
        rw [List.getElem?_cons_succ] at h
        exact ih (fun x hx => hn x (by simp [hx])) _ i j (by omega) h

/-- The initiator ends with a secured connection or with one that does not work, if the connection and the SSL objects
can be created, `SSL_connect` reports no protocol error, the listener shows a certificate and the connection does not
survive when greetings fail. Missing: these cases, see `C59_initiator_falls_back`. -/
theorem C59_initiator_partial (e : TlsInit) (c : TlsConn) (o : TlsOutcome) (hok : c.ok = true) (hs : c.secured = false)
    (ha : e.answer = .proceed) (hr : e.renewed = true) (hc : e.context = true) (hce : e.cert = true)
    (hx : ∀ x ∈ e.calls, x.err = .other → 0 < x.ret) (hg : e.okAfter = false)
    (h : (tlsStart e c).1 = some o) : ∀ n st, (n, st) ∈ o.notes → n.ok = true → n.secured = true ∧ n.io = .tls ∧ st = true := by
  obtain ⟨ok, io, sec, off⟩ := c
  dsimp only at hok hs
  subst hok hs
  simp only [tlsStart, Bool.not_true, Bool.false_eq_true, if_false] at h
  simp only [tlsNegotiate, ha, hr, hc, tlsActivate, TlsConn.renew, ne_eq, not_true, if_false, Bool.not_true, Bool.false_eq_true,
    hce] at h
  cases hk : tlsConnect ⟨true, .tls, false, false⟩ e.calls with
  | none => simp only [hk] at h; simp at h
  | some r =>
    obtain ⟨b, n⟩ := r
    cases b with
    | false =>
      rcases aux_tl_connect_fail _ _ _ hk with ⟨h1, _⟩ | ⟨h1, x, hx1, hx2, hx3⟩
      · subst h1; simp only [hk] at h; simp at h; subst h; simp
      · exact absurd (hx x hx1 hx2) (by omega)
    | true =>
      have hn := aux_tl_connect_same _ _ _ hk
      subst hn
      simp only [hk] at h
      rcases hp : e.post with _ | v
      · simp only [hp] at h
        split at h
        · simp at h; subst h; simp
        · simp at h; subst h; simp [hg]
      · cases v with
        | false => simp [hp] at h; subst h; simp
        | true =>
          simp only [hp] at h
          split at h
          · simp at h; subst h; simp
          · simp at h; subst h; simp [hg]

example : (∀ x ∈ aux_tl_works.calls, x.err = .other → 0 < x.ret) ∧ aux_tl_works.answer = .proceed ∧ aux_tl_works.cert = true := by decide

/-! ### A request for TLS that is not carried out changes nothing -/

/-- The property: when the listener does not agree, the connection is as it was; asking for TLS on a secured connection,
with or without waiting, gives that connection back, and it still works. -/
def C60_statement : Prop :=
  (∀ (e : TlsInit) (c : TlsConn) (o : TlsOutcome), c.ok = true → c.secured = false → e.answer ≠ .proceed →
    (tlsStart e c).1 = some o → o.old = c) ∧
  (∀ (e : TlsInit) (t : TlsTiming) (c : TlsConn), c.ok = true → c.secured = true →
    (tlsStart e c).1 = some ⟨c, none, [(c, true)]⟩ ∧ tlsSync e t c = ⟨some c, true, c, none⟩)

/-- **Violation**: after a refusal, in whatever form, the connection sends no SEQ frames any more. -/
theorem C60_no_more_seq (e : TlsInit) (c : TlsConn) (hok : c.ok = true) (hs : c.secured = false) (ha : e.answer ≠ .proceed) :
    (tlsStart e c).1 = some ⟨{ c with seqOff := true }, none, [({ c with seqOff := true }, false)]⟩ := by
  simp [tlsStart, hok, hs, tlsNegotiate, ha]

/-- **Violation**: `vortex_tls_start_negotiation_sync` on a secured connection shuts it down and reports a timeout. -/
theorem C60_sync_kills (e : TlsInit) (t : TlsTiming) (c : TlsConn) (hok : c.ok = true) (hs : c.secured = true) :
    tlsSync e t c = ⟨none, false, { c with ok := false }, none⟩ := by
  simp [tlsSync, tlsStart, hok, hs, TlsOutcome.dropped]

theorem C60_statement_false : ¬ C60_statement := by
  rintro ⟨h, _⟩
  have := h ⟨.error, true, true, [], true, none, true, true, true, true⟩ .plain _ rfl rfl (by decide)
    (C60_no_more_seq _ _ rfl rfl (by decide))
  simp [TlsConn.plain] at this

/-- What holds: a refusal is notified once, and changes nothing but the SEQ frames; asking without waiting is harmless on
a secured connection; if the caller waits for the answer in time, the synchronous call gives the connection of the
notification, with its status. Missing: see the violations. -/
theorem C60_harmless_partial (e : TlsInit) (c : TlsConn) (hok : c.ok = true) :
    (c.secured = true → (tlsStart e c).1 = some ⟨c, none, [(c, true)]⟩) ∧
    (c.secured = false → ∀ o, (tlsStart e c).1 = some o →
      (e.answer ≠ .proceed → o.old.ok = true ∧ o.old.io = c.io ∧ o.old.secured = false ∧ o.new = none) ∧
      ∃ n st, o.notes = [(n, st)] ∧ tlsSync e .waiting c = ⟨some n, st, o.old, o.new⟩) := by
  constructor
  · intro hs; simp [tlsStart, hok, hs]
  · intro hs o ho
    constructor
    · intro ha
      rw [C60_no_more_seq e c hok hs ha] at ho
      simp at ho; subst ho; simp [hok, hs]
    · obtain ⟨n, hn, _⟩ := C58_initiator e c o hok hs ho
      refine ⟨n, n.secured, hn, ?_⟩
      have h2 : tlsStart e c = (some o, false) := by
        have : (tlsStart e c).2 = false := by simp [tlsStart, hok, hs]
        exact Prod.ext ho this
      simp [tlsSync, hok, h2, hn]

example : (TlsConn.plain).ok = true ∧ (TlsConn.plain).secured = false ∧
    tlsSync ⟨.error, true, true, [], true, none, true, true, true, true⟩ .waiting .plain =
      ⟨some ⟨true, .clear, false, true⟩, false, ⟨true, .clear, false, true⟩, none⟩ := by decide

/-! ### Authentication from before TLS does not count -/

/-- The property: on the connection that replaces the old one, the peer is authenticated only after a negotiation that
was completed on it. -/
def C61_statement : Prop :=
  ∀ (cfg : SaslConfig) (es es' : List SaslEvent) (as as' : List SaslAnswer) (c c' : SaslServer),
    SaslServer.init.run cfg es = some (as, c) → c.renew.run cfg es' = some (as', c') → c'.isAuthenticated = true →
    .complete ∈ as'

/-- **Violation**: whoever completes CRAM-MD5 as user 9 before TLS (without TLS this may be somebody in between) is
authenticated as user 9 with TLS by starting a channel for CRAM-MD5, without an answer to the challenge. -/
theorem C61_carried_over :
    (SaslServer.init.run aux_sa_cfg [.start .cram true (.blob .more), .frame (.blob (.ask ⟨some 9, none, none, none⟩ true))]).bind
      (fun r => (r.2.renew.run aux_sa_cfg [.start .cram true (.blob .more)]).map
        (fun q => (q.1, q.2.isAuthenticated, q.2.props.authid))) = some ([.more], true, some 9) := by decide

theorem C61_statement_false : ¬ C61_statement := by
  intro h
  have := h aux_sa_cfg [.start .cram true (.blob .more), .frame (.blob (.ask ⟨some 9, none, none, none⟩ true))]
    [.start .cram true (.blob .more)] _ _ _ _ rfl rfl (by decide)
  exact absurd this (by decide)

theorem aux_tl_authed (cfg : SaslConfig) (es : List SaslEvent) : ∀ (c c' : SaslServer) (as : List SaslAnswer),
    c.run cfg es = some (as, c') → c'.authed = true → c.authed = true ∨ .complete ∈ as := by
  induction es with
  | nil => intro c c' as h ha; simp [SaslServer.run] at h; obtain ⟨_, rfl⟩ := h; exact .inl ha
  | cons e es ih =>
    intro c c' as h ha
    unfold SaslServer.run at h
    split at h
    · simp at h
    · next a c1 hs =>
      split at h
      · simp at h
      · next as1 c2 hr =>
        simp at h
        obtain ⟨rfl, rfl⟩ := h
        rcases ih _ _ _ hr ha with h1 | h1
        · rcases aux_sa_step cfg c c1 e a hs with ⟨h2, _⟩ | ⟨_, _, h2, _⟩
          · exact .inr (by simp [h2])
          · exact .inl (h2 h1)
        · exact .inr (by simp [h1])

/-- It holds if nothing was completed before. Missing: see `C61_carried_over`. -/
theorem C61_fresh_partial (cfg : SaslConfig) (es es' : List SaslEvent) (as as' : List SaslAnswer) (c c' : SaslServer)
    (hr : SaslServer.init.run cfg es = some (as, c)) (hc : .complete ∉ as) (hr' : c.renew.run cfg es' = some (as', c'))
    (h : c'.isAuthenticated = true) : .complete ∈ as' := by
  have ha : c'.authed = true := by simp [SaslServer.isAuthenticated] at h; exact h.1
  rcases aux_tl_authed cfg es' _ _ _ hr' ha with h1 | h1
  · rcases aux_tl_authed cfg es _ _ _ hr h1 with h2 | h2
    · simp [SaslServer.init] at h2
    · exact absurd h2 hc
  · exact h1

example : ∃ as c, SaslServer.init.run aux_sa_cfg [.start .cram true (.blob .more)] = some (as, c) ∧ .complete ∉ as ∧
    (c.renew.run aux_sa_cfg [.start .plain true (.blob (.ask ⟨some 1, none, none, none⟩ true))]).map (fun q => q.2.isAuthenticated) = some true :=
  ⟨_, _, rfl, by decide, by decide⟩

/-- In every case it is not authenticated before a SASL channel is started. -/
theorem C61_needs_start (cfg : SaslConfig) (es : List SaslEvent) : ∀ (c c' : SaslServer) (as : List SaslAnswer),
    c.chans = [] → (∀ m s i, SaslEvent.start m s i ∉ es) → c.run cfg es = some (as, c') → c'.isAuthenticated = false := by
  induction es with
  | nil =>
    intro c c' as hc _ h
    simp [SaslServer.run] at h; obtain ⟨_, rfl⟩ := h
    simp only [SaslServer.isAuthenticated, hc]
    cases c.method <;> simp
  | cons e es ih =>
    intro c c' as hc hn h
    unfold SaslServer.run at h
    split at h
    · simp at h
    · next a c1 hs =>
      split at h
      · simp at h
      · next as1 c2 hr =>
        simp at h
        obtain ⟨rfl, rfl⟩ := h
        refine ih c1 _ _ ?_ (fun m s i hm => hn m s i (by simp [hm])) hr
        cases e with
        | start m s i => exact absurd (by simp) (hn m s i)
        | frame i => simp [SaslServer.step, hc] at hs; rw [← hs.2]; exact hc
        | close m => simp [SaslServer.step] at hs; rw [← hs.2]; simp [hc]

example (c : SaslServer) : c.renew.chans = [] := rfl

/-! ### Automatic TLS -/

/-- With automatic TLS and no failures allowed, whoever opens a connection gets one that is secured (completely), one that
does not work, or none: whatever the listener answers, whatever OpenSSL does, whenever the result comes. -/
theorem C62_auto_secured (a : TlsAuto) (e : TlsInit) (t : TlsTiming) (c : TlsConn) (hs : c.secured = false)
    (he : a.enabled = true) (hf : a.allowFailures = false) :
    tlsActionsNotify a e t c = none ∨
    (∃ n, tlsActionsNotify a e t c = some n ∧ n.ok = false) ∨
    (tlsActionsNotify a e t c = some ⟨true, .tls, true, false⟩ ∧ sslDone e.calls ∧ e.cert = true ∧ e.post ≠ some false) := by
  unfold tlsActionsNotify
  cases hok : c.ok with
  | false => simp [hok]
  | true =>
    simp only [Bool.not_true, Bool.false_eq_true, if_false]
    unfold tlsAutoAction
    simp only [he, hs, Bool.not_false, Bool.and_self, if_true, hf, Bool.true_and]
    cases hc : (tlsSync e t c).conn with
    | none => simp
    | some n =>
      dsimp only
      cases hn : n.ok with
      | false =>
        simp only [Bool.not_false, if_true]
        cases (tlsSync e t c).new.isSome <;> simp [hn]
      | true =>
        simp only [Bool.not_true, Bool.false_eq_true, if_false]
        cases hsec : n.secured with
        | false =>
          simp only [Bool.not_false, if_true]
          cases (tlsSync e t c).new.isSome <;> simp
        | true =>
          right; right
          simp only [Bool.not_true, Bool.false_eq_true, if_false, Option.getD_some]
          have h2 : (tlsStart e c).2 = false := by simp [tlsStart, hok, hs]
          rcases ho : tlsStart e c with ⟨o, b⟩
          rw [ho] at h2
          dsimp only at h2
          subst h2
          rcases o with _ | o
          · simp [tlsSync, hok, ho] at hc
          · obtain ⟨m, hm, hi, hw⟩ := C58_initiator e c o hok hs (by rw [ho])
            simp only [tlsSync, hok, ho, Bool.not_true, Bool.false_eq_true, if_false, hm] at hc
            cases t with
            | waiting =>
              simp at hc
              subst hc
              obtain ⟨_, _, _, h1, h2, h3, _⟩ := hi.1 hsec
              exact ⟨by rw [(hw hsec).1], h1, h2, h3⟩
            | early => simp at hc
            | late => simp at hc

example : tlsActionsNotify ⟨true, false⟩ aux_tl_works .waiting .plain = some ⟨true, .tls, true, false⟩ ∧
    tlsActionsNotify ⟨true, false⟩ ⟨.error, true, true, [], true, none, true, true, true, true⟩ .waiting .plain =
      some ⟨false, .clear, false, true⟩ ∧
    tlsActionsNotify ⟨true, false⟩ aux_tl_works .late .plain = none := by decide

/-- When it works, and the answer comes while the caller waits, the connection is secured and works. -/
theorem C62_auto_works (a : TlsAuto) (e : TlsInit) (c : TlsConn) (hok : c.ok = true) (hs : c.secured = false)
    (he : a.enabled = true) (h : e.answer = .proceed ∧ e.renewed = true ∧ e.context = true ∧ sslDone e.calls ∧ e.cert = true ∧
        e.post ≠ some false ∧ e.greetSend = true ∧ e.greetSent = true ∧ e.greetRead = true) :
    tlsActionsNotify a e .waiting c = some ⟨true, .tls, true, false⟩ := by
  have h2 : (tlsStart e c).2 = false := by simp [tlsStart, hok, hs]
  rcases ho : tlsStart e c with ⟨o, b⟩
  rw [ho] at h2
  dsimp only at h2
  subst h2
  rcases o with _ | o
  · exfalso
    have h3 : (tlsStart e c).1 = none := by rw [ho]
    obtain ⟨h4, h5, h6, h7, _⟩ := h
    obtain ⟨c', hc'⟩ := (aux_tl_connect ⟨true, .tls, false, false⟩ e.calls).2 h7
    simp only [tlsStart, hok, hs, tlsNegotiate, h4, h5, h6, tlsActivate, TlsConn.renew, ne_eq, not_true, if_false, Bool.not_true,
      Bool.false_eq_true, hc'] at h3
    grind
  · obtain ⟨m, hm, hi, hw⟩ := C58_initiator e c o hok hs (by rw [ho])
    have hsec := hi.2 h
    obtain ⟨hw1, hw2, _⟩ := hw hsec
    subst hw1
    simp [tlsActionsNotify, hok, tlsAutoAction, he, hs, tlsSync, ho, hm]

/-- With failures allowed a refusal by the peer, learned while the caller waits, leaves the connection working in clear text. -/
theorem C62_refused_allowed (a : TlsAuto) (e : TlsInit) (c : TlsConn) (hok : c.ok = true) (hs : c.secured = false) (he : a.enabled = true)
    (hf : a.allowFailures = true) (h : e.answer ≠ .proceed) :
    ∃ n, tlsActionsNotify a e .waiting c = some n ∧ n.ok = true ∧ n.secured = false ∧ n.io = c.io := by
  refine ⟨{ c with seqOff := true }, ?_, hok, hs, rfl⟩
  simp [tlsActionsNotify, hok, tlsAutoAction, he, hs, hf, tlsSync, tlsStart, tlsNegotiate, h]

example : tlsActionsNotify ⟨true, true⟩ ⟨.error, true, true, [], true, none, true, true, true, true⟩ .waiting .plain =
    some ⟨true, .clear, false, true⟩ := by decide

/-- Automatic negotiation that is not enabled, or a connection secured already: nothing is changed. -/
theorem C62_not_wanted (a : TlsAuto) (e : TlsInit) (t : TlsTiming) (c : TlsConn) (h : a.enabled = false ∨ c.secured = true) :
    tlsActionsNotify a e t c = some c := by
  rcases h with h | h <;> cases hok : c.ok <;> simp [tlsActionsNotify, tlsAutoAction, h, hok]

end Verif.Props
