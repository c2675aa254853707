import Verif.Spec.Connect
/-! C92: connecting a socket. -/
namespace Verif.Props
open Verif.Model Verif.Spec

/-- C92, full: a socket is returned only when it is connected; when none is returned the one that was created is closed; a timeout is told
only when the time is over; a connection that is established in time is returned; and the address used is for the transport asked for. False
of the code. -/
def C92_statement : Prop :=
  (∀ e us r, tcpSane e us → tcpConnect e = some r →
    (r.ok = true → r.sock = .connected) ∧
    (r.ok = false → r.sock = .none ∨ r.sock = .closed) ∧
    (r.error = some .timeout → ∃ k, us 0 + e.timeout ≤ us k) ∧
    (tcpInTime e us → r.ok = true)) ∧
  ∀ qs, dnsSane qs → ∀ (i : Nat) (q : HostQuery) (a : NetAddr), qs[i]? = some q → (hostLookups [] qs)[i]? = some (some a) → a.family = q.transport

/-- C92 is violated: with a timeout below one second the socket is returned while the connection is still in progress. -/
theorem C92_unfinished (e : TcpEnv) (h1 : e.resolved) (h2 : e.socketOk) (h3 : e.limitOk) (h4 : e.sane) (ht : 0 < e.timeout)
    (ht' : e.timeout < 1000000) (hc : e.nonBlocking = .progress) : tcpConnect e = some ⟨true, .connecting, none, 0⟩ := by
  have hi : i32 e.timeout = e.timeout := by simp only [i32]; omega
  have hd : e.timeout.tdiv 1000000 = 0 := Int.tdiv_eq_zero_of_lt (by omega) ht'
  simp [tcpConnect, h1, h2, h3, h4, hi, ht, hd, hc]

example : ∃ e : TcpEnv, e.resolved ∧ e.socketOk ∧ e.limitOk ∧ e.sane ∧ e.timeout = 500000 ∧ e.nonBlocking = .progress :=
  ⟨⟨true, true, true, true, 500000, .done, .progress, fun _ => 0, false, []⟩, rfl, rfl, rfl, rfl, rfl, rfl⟩

/-- C92 is violated: `errno` was `EBADF` before, so a connection that is established at once is given up. -/
theorem C92_stale_errno (clock : Nat → Int) (hc : ∀ k, clock k = clock 0) (post : List CwOut) :
    tcpConnect ⟨true, true, true, true, 10000000, .done, .progress, clock, true, .ready :: post⟩ =
      some ⟨false, .closed, some .connect, 10⟩ := by
  have h : ¬ (clock 0 + 10 ≤ clock 0) := by omega
  have hd : (10000000 : Int).tdiv 1000000 = 10 := rfl
  have hi : i32 10000000 = 10000000 := rfl
  simp [tcpConnect, hd, hi, cwWait, cwLoop, cwRound, hc, h]

example : ∀ k, (fun _ : Nat => (5 : Int)) k = (fun _ : Nat => (5 : Int)) 0 := fun _ => rfl

/-- C92 is violated: with a timeout of 1.9 seconds, and the call made just before the full second, the timeout is told after 0.3 seconds. -/
theorem C92_early : ∃ us : Nat → Int, (∀ i j, i ≤ j → us i ≤ us j) ∧ (∀ k, us k ≤ us 0 + 300000) ∧
    tcpConnect ⟨true, true, true, true, 1900000, .done, .progress, fun k => us k / 1000000, false, [.round]⟩ =
      some ⟨false, .closed, some .timeout, 0⟩ := by
  refine ⟨fun k => if k < 2 then 900000 else 1200000, ?_, ?_, ?_⟩
  · intro i j h; simp only; split <;> split <;> omega
  · intro k; simp only; split <;> simp
  · have hd : (1900000 : Int).tdiv 1000000 = 1 := rfl
    have hi : i32 1900000 = 1900000 := rfl
    simp [tcpConnect, hd, hi, cwWait, cwLoop, cwRound, cwFinish]

/-- C92 is violated: a name that was looked up for IPv4 is used for IPv6 in the same context. -/
theorem C92_family (dns : String → String → Transport → Option NetAddr) (host port : String) (a : NetAddr) (ha : dns host port .ipv4 = some a) :
    hostLookups [] [⟨host, port, .ipv4, dns⟩, ⟨host, port, .ipv6, dns⟩] = [some a, some a] := by
  simp [hostLookups, hostLookup, ha, List.lookup]

theorem C92_statement_false : ¬ C92_statement := by
  intro h
  have h1 := h.1 ⟨true, true, true, true, 500000, .done, .progress, fun _ => 0, false, []⟩ (fun _ => 0) ⟨true, .connecting, none, 0⟩
    ⟨fun _ _ _ => Int.le_refl _, fun _ => rfl, by simp⟩ (C92_unfinished _ rfl rfl rfl rfl (by simp) (by simp) rfl)
  have := h1.1 rfl
  cases this

/-- A call that does not return a socket leaves none open. -/
theorem C92_closed (e : TcpEnv) (r : TcpResult) (h : tcpConnect e = some r) (hr : r.ok = false) :
    (r.sock = .none ∨ r.sock = .closed) ∧ r.error ≠ none := by
  simp only [tcpConnect] at h
  grind

theorem aux_cx_loop_ready (clock : Nat → Int) (start period : Int) : ∀ (outs : List CwOut) (k : Nat) (bad : Bool) (err : Int) (w : CwEnd),
    err ≤ 0 → cwLoop clock start period k bad err outs = some w → 0 < w.ret → .ready ∈ outs := by
  intro outs
  induction outs with
  | nil =>
    intro k bad err w he h hw
    simp only [cwLoop, cwRound, cwFinish] at h
    grind
  | cons o rest ih =>
    intro k bad err w he h hw
    rw [cwLoop] at h
    by_cases hr : o = .ready
    · simp [hr]
    · have ih' := fun b (err : Int) (he : err ≤ 0) hh => ih (k + 1) b err w he hh hw
      cases o <;> simp only [cwRound, cwFinish] at h <;> grind

/-- A socket that is returned was connected if no timeout was asked for, or one second or more. -/
theorem C92_connected_partial (e : TcpEnv) (us : Nat → Int) (r : TcpResult) (hs : tcpSane e us) (ht : e.timeout ≤ 0 ∨ 1000000 ≤ e.timeout)
    (hi : -2147483648 ≤ e.timeout ∧ e.timeout < 2147483648) (h : tcpConnect e = some r) (hr : r.ok = true) :
    r.sock = .connected ∧ (0 < e.timeout → .ready ∈ e.outs) ∧ (e.timeout ≤ 0 → e.blocking = .done) := by
  have hi' : i32 e.timeout = e.timeout := by simp only [i32]; omega
  have hb := hs.2.2
  simp only [tcpConnect, hi'] at h
  by_cases hp : 0 < e.timeout
  · have hd : 0 < e.timeout.tdiv 1000000 := by
      rw [Int.tdiv_eq_ediv_of_nonneg (by omega)]
      omega
    simp only [hp, if_true, hd] at h
    have hl : ∀ w, cwWait e.clock (e.timeout.tdiv 1000000) 0 e.bad e.outs = some w → 0 < w.ret → .ready ∈ e.outs := by
      intro w hw hw'
      simp only [cwWait] at hw
      rw [if_neg (by omega)] at hw
      exact aux_cx_loop_ready _ _ _ _ _ _ _ _ (by omega) hw hw'
    grind
  · have hd : ¬ 0 < e.timeout := hp
    simp only [hp, if_false, hd] at h
    cases hbl : e.blocking <;> simp only [hbl] at h hb <;> grind

example : ∃ e us r, tcpSane e us ∧ e.timeout = 3000000 ∧ e.nonBlocking = .progress ∧ tcpConnect e = some r ∧ r.ok = true := by
  refine ⟨⟨true, true, true, true, 3000000, .done, .progress, fun _ => 7, false, [.round, .ready]⟩, fun _ => 7000000,
    ⟨true, .connected, none, 3⟩, ⟨fun _ _ _ => Int.le_refl _, fun _ => rfl, by simp⟩, rfl, rfl, ?_, rfl⟩
  have hd : (3000000 : Int).tdiv 1000000 = 3 := rfl
  have hi : i32 3000000 = 3000000 := rfl
  simp [tcpConnect, hd, hi, cwWait, cwLoop, cwRound, cwFinish]

theorem aux_cx_loop_timeout (clock : Nat → Int) (start period : Int) : ∀ (outs : List CwOut) (k : Nat) (bad : Bool) (err : Int) (w : CwEnd),
    cwLoop clock start period k bad err outs = some w → w.ret = -2 → (∃ j, start + period ≤ clock j) := by
  intro outs
  induction outs with
  | nil =>
    intro k bad err w h hw
    simp only [cwLoop, cwRound, cwFinish] at h
    grind
  | cons o rest ih =>
    intro k bad err w h hw
    rw [cwLoop] at h
    have ih' := fun b (err : Int) hh => ih (k + 1) b err w hh hw
    cases o <;> simp only [cwRound, cwFinish] at h <;> grind

/-- A timeout of full seconds is told when at least that time, less one second, is over. Missing: the last second, because the code uses
full seconds of the clock, and timeouts that are not full seconds, which are rounded down. -/
theorem C92_timeout_partial (e : TcpEnv) (us : Nat → Int) (r : TcpResult) (hs : tcpSane e us) (ht : tcpSeconds e) (h : tcpConnect e = some r)
    (hr : r.error = some .timeout) : ∃ k, us 0 + e.timeout - 1000000 < us k := by
  obtain ⟨n, hn, hn', hi⟩ := ht
  have hi' : i32 e.timeout = e.timeout := by simp only [i32]; omega
  have hp : 0 < e.timeout := by omega
  have hd : e.timeout.tdiv 1000000 = n := by
    rw [Int.tdiv_eq_ediv_of_nonneg (by omega)]
    omega
  simp only [tcpConnect, hi', hp, if_true, hd, hn] at h
  have hl : ∀ w, cwWait e.clock n 0 e.bad e.outs = some w → w.ret = -2 → ∃ j, e.clock 0 + n ≤ e.clock j := by
    intro w hw hw'
    simp only [cwWait] at hw
    rw [if_neg (by omega)] at hw
    exact aux_cx_loop_timeout _ _ _ _ _ _ _ _ hw hw'
  have : ∃ j, e.clock 0 + n ≤ e.clock j := by grind
  obtain ⟨j, hj⟩ := this
  refine ⟨j, ?_⟩
  rw [hs.2.1, hs.2.1] at hj
  omega

example : ∃ e us r, tcpSane e us ∧ tcpSeconds e ∧ tcpConnect e = some r ∧ r.error = some .timeout := by
  refine ⟨⟨true, true, true, true, 3000000, .done, .progress, fun k => if k < 2 then 7 else 11, false, [.round]⟩,
    fun k => if k < 2 then 7000000 else 11000000, ⟨false, .closed, some .timeout, -1⟩, ⟨?_, ?_, by simp⟩, ⟨3, by simp, by simp, by simp⟩, ?_, rfl⟩
  · intro i j h; simp only; split <;> split <;> omega
  · intro k; simp only; split <;> rfl
  · have hd : (3000000 : Int).tdiv 1000000 = 3 := rfl
    have hi : i32 3000000 = 3000000 := rfl
    simp [tcpConnect, hd, hi, cwWait, cwLoop, cwRound, cwFinish]

theorem aux_cx_loop_quiet (clock : Nat → Int) (start period : Int) (post : List CwOut) : ∀ (pre : List CwOut) (k : Nat) (err : Int),
    (∀ o ∈ pre, cwQuiet o) → (∀ j, j ≤ k + pre.length + 1 → clock j < start + period) →
    ∃ w, cwLoop clock start period k false err (pre ++ .ready :: post) = some w ∧ w.ret = 1 := by
  intro pre
  induction pre with
  | nil =>
    intro k err _ hc
    have h1 := hc k (by simp)
    have h2 := hc (k + 1) (by simp)
    refine ⟨cwFinish clock start period (k + 1) 1 0, ?_, ?_⟩
    · rw [List.nil_append, cwLoop, if_neg (by omega)]
      simp [cwRound]
    · simp only [cwFinish]
      rw [if_neg (by omega)]
  | cons o rest ih =>
    intro k err hq hc
    have h1 := hc k (by simp; omega)
    have ih' := fun err => ih (k + 1) err (fun o ho => hq o (List.mem_cons_of_mem _ ho)) (fun j hj => hc j (by simp at hj ⊢; omega))
    rw [List.cons_append, cwLoop, if_neg (by omega)]
    rcases hq o (by simp) with h | h | h | h <;> subst h
    · simpa [cwRound] using ih' 0
    · simpa [cwRound] using ih' (-2)
    · simpa [cwRound, EINTR, EBADF] using ih' (-1)
    · simpa [cwRound, EINTR, EAGAIN, EBADF] using ih' (-1)

/-- A connection established in time is returned if the timeout is a number of seconds, one second is left, and `errno` was not `EBADF`
before. -/
theorem C92_ready_partial (e : TcpEnv) (us : Nat → Int) (hs : tcpSane e us) (ht : tcpSeconds e) (hb : e.bad = false)
    (hin : tcpInTime { e with timeout := e.timeout - 1000000 } us) : ∃ r, tcpConnect e = some r ∧ r.ok = true ∧ r.sock = .connected := by
  obtain ⟨n, hn, hn', hi⟩ := ht
  obtain ⟨h1, h2, h3, h4, _, hnb, pre, post, ho, hq, hus⟩ := hin
  simp only at h1 h2 h3 h4 hnb ho hus
  have hi' : i32 e.timeout = e.timeout := by simp only [i32]; omega
  have hp : 0 < e.timeout := by omega
  have hd : e.timeout.tdiv 1000000 = n := by
    rw [Int.tdiv_eq_ediv_of_nonneg (by omega)]
    omega
  obtain ⟨w, hw, hwr⟩ := aux_cx_loop_quiet e.clock (e.clock 0) n post pre 1 (-2) hq (by
    intro j hj
    have := hs.1 j (pre.length + 2) (by omega)
    rw [hs.2.1, hs.2.1]
    omega)
  refine ⟨⟨true, .connected, none, w.period⟩, ?_, rfl, rfl⟩
  simp only [tcpConnect, hi', hp, if_true, hd, hn, h1, h2, h3, h4, hnb, cwWait, hb, ho]
  have : ¬ n ≤ 0 := by omega
  simp [this, hw, hwr]

example : ∃ e us, tcpSane e us ∧ tcpSeconds e ∧ e.bad = false ∧ tcpInTime { e with timeout := e.timeout - 1000000 } us := by
  refine ⟨⟨true, true, true, true, 3000000, .done, .progress, fun _ => 7, false, [.round, .failed EINTR, .ready]⟩, fun _ => 7000000,
    ⟨fun _ _ _ => Int.le_refl _, fun _ => rfl, by simp⟩, ⟨3, by simp, by simp, by simp⟩, rfl, rfl, rfl, rfl, rfl, by simp, rfl,
    [.round, .failed EINTR], [], rfl, ?_, by simp⟩
  intro o ho
  simp only [List.mem_cons, List.not_mem_nil, or_false] at ho
  rcases ho with rfl | rfl <;> simp [cwQuiet]

theorem aux_cx_loop_ends (clock : Nat → Int) (start period : Int) (n : Nat) (hn : start + period ≤ clock n) :
    ∀ (outs : List CwOut) (k : Nat) (bad : Bool) (err : Int), k ≤ n → n ≤ k + outs.length → cwLoop clock start period k bad err outs ≠ none := by
  intro outs
  induction outs with
  | nil =>
    intro k bad err h1 h2
    have : k = n := by simp at h2; omega
    subst this
    rw [cwLoop, if_pos hn]
    simp
  | cons o rest ih =>
    intro k bad err h1 h2
    rw [cwLoop]
    by_cases hk : k = n
    · subst hk; rw [if_pos hn]; simp
    · have ih' := fun b err => ih (k + 1) b err (by omega) (by simp at h2; omega)
      cases o <;> simp only [cwRound] <;> grind

/-- The wait ends at the latest in the first round that begins after the time is over. -/
theorem C92_ends (clock : Nat → Int) (period : Int) (bad : Bool) (outs : List CwOut) (n : Nat) (hn : clock 0 + period ≤ clock n) (h1 : 1 ≤ n)
    (ho : n ≤ 1 + outs.length) : cwWait clock period 0 bad outs ≠ none := by
  simp only [cwWait]
  split
  · simp
  · exact aux_cx_loop_ends clock _ period n hn outs 1 bad (-2) h1 ho

example : ∃ (clock : Nat → Int) (outs : List CwOut), clock 0 + 2 ≤ clock 3 ∧ 3 ≤ 1 + outs.length ∧ cwWait clock 2 0 false outs ≠ none :=
  ⟨fun k => k, [.round, .again], by simp, by simp, C92_ends _ _ _ _ 3 (by simp) (by omega) (by simp)⟩

/-- The time left that the wait reports is what was asked for, less the time it took; the connection has that time for the greetings. -/
theorem C92_left (e : TcpEnv) (r : TcpResult) (hr : r.ok = true) (h : tcpConnect e = some r) (hp : 1000000 ≤ e.timeout) (hi : e.timeout < 2147483648) :
    ∃ k, r.left = e.timeout / 1000000 - (e.clock k - e.clock 0) := by
  have hi' : i32 e.timeout = e.timeout := by simp only [i32]; omega
  have hp' : 0 < e.timeout := by omega
  have hd : e.timeout.tdiv 1000000 = e.timeout / 1000000 := Int.tdiv_eq_ediv_of_nonneg (by omega)
  have hn : 0 < e.timeout / 1000000 := by omega
  simp only [tcpConnect, hi', hp', if_true, hd, hn] at h
  have hl : ∀ (outs : List CwOut) (k : Nat) (bad : Bool) (err : Int) (w : CwEnd),
      cwLoop e.clock (e.clock 0) (e.timeout / 1000000) k bad err outs = some w → 0 < w.ret →
      ∃ j, w.period = e.timeout / 1000000 - (e.clock j - e.clock 0) := by
    intro outs
    induction outs with
    | nil =>
      intro k bad err w h hw
      simp only [cwLoop, cwRound, cwFinish] at h
      grind
    | cons o rest ih =>
      intro k bad err w h hw
      rw [cwLoop] at h
      have ih' := fun b (err : Int) hh => ih (k + 1) b err w hh hw
      cases o <;> simp only [cwRound, cwFinish] at h <;> grind
  have hl' : ∀ w, cwWait e.clock (e.timeout / 1000000) 0 e.bad e.outs = some w → 0 < w.ret →
      ∃ j, w.period = e.timeout / 1000000 - (e.clock j - e.clock 0) := by
    intro w hw
    simp only [cwWait] at hw
    rw [if_neg (by omega)] at hw
    exact hl _ _ _ _ _ hw
  grind

theorem aux_cx_split : ∀ (a b p q : List Char), ':' ∉ p → ':' ∉ q → a ++ ':' :: p = b ++ ':' :: q → a = b ∧ p = q
  | [], [], p, q, _, _, h => by simpa using h
  | [], y :: b, p, q, hp, _, h => by
    simp only [List.nil_append, List.cons_append, List.cons.injEq] at h
    exact absurd (by rw [h.2]; simp) hp
  | x :: a, [], p, q, _, hq, h => by
    simp only [List.nil_append, List.cons_append, List.cons.injEq] at h
    exact absurd (by rw [← h.2]; simp) hq
  | x :: a, y :: b, p, q, hp, hq, h => by
    simp only [List.cons_append, List.cons.injEq] at h
    obtain ⟨h1, h2⟩ := aux_cx_split a b p q hp hq h.2
    exact ⟨by rw [h.1, h1], h2⟩

/-- The key tells the name and the port. -/
theorem aux_cx_key {h p h' p' : String} (hp : ':' ∉ p.toList) (hp' : ':' ∉ p'.toList) (e : hostKey h p = hostKey h' p') : h = h' ∧ p = p' := by
  have := congrArg String.toList e
  simp only [hostKey, String.toList_append] at this
  have hc : ":".toList = [':'] := rfl
  rw [hc, List.append_assoc, List.append_assoc] at this
  obtain ⟨h1, h2⟩ := aux_cx_split _ _ _ _ hp hp' this
  exact ⟨String.toList_inj.1 h1, String.toList_inj.1 h2⟩

theorem aux_cx_lookups : ∀ (qs past : List HostQuery) (cache : HostCache), (∀ q ∈ past ++ qs, ':' ∉ q.port.toList) →
    (∀ q ∈ qs, ∀ a, cache.lookup (hostKey q.host q.port) = some a →
      ∃ p ∈ past, p.host = q.host ∧ p.port = q.port ∧ p.dns q.host q.port p.transport = some a) →
    ∀ (i : Nat) (q : HostQuery) (a : NetAddr), qs[i]? = some q → (hostLookups cache qs)[i]? = some (some a) →
    ∃ p ∈ past ++ qs.take (i + 1), p.host = q.host ∧ p.port = q.port ∧ p.dns q.host q.port p.transport = some a := by
  intro qs
  induction qs with
  | nil => intro _ _ _ _ i q a h; simp at h
  | cons p rest ih =>
    intro past cache hp hc i q a hq ha
    cases i with
    | zero =>
      simp only [hostLookups, List.getElem?_cons_zero, Option.some.injEq] at hq ha
      subst hq
      simp only [hostLookup] at ha
      cases hl : cache.lookup (hostKey p.host p.port) with
      | some b =>
        rw [hl] at ha; cases ha
        obtain ⟨u, hu, h⟩ := hc p (by simp) _ hl
        exact ⟨u, List.mem_append_left _ hu, h⟩
      | none =>
        rw [hl] at ha
        cases hdd : p.dns p.host p.port p.transport with
        | none => rw [hdd] at ha; cases ha
        | some b => rw [hdd] at ha; cases ha; exact ⟨p, by simp, rfl, rfl, hdd⟩
    | succ i =>
      simp only [hostLookups, List.getElem?_cons_succ] at hq ha
      have e : past ++ (p :: rest).take (i + 1 + 1) = (past ++ [p]) ++ rest.take (i + 1) := by simp
      rw [e]
      refine ih (past ++ [p]) _ (fun q hq => hp q (by simpa using hq)) ?_ i q a hq ha
      intro q hq a ha
      have old : cache.lookup (hostKey q.host q.port) = some a →
          ∃ u ∈ past ++ [p], u.host = q.host ∧ u.port = q.port ∧ u.dns q.host q.port u.transport = some a := fun h => by
        obtain ⟨u, hu, h⟩ := hc q (List.mem_cons_of_mem _ hq) a h
        exact ⟨u, List.mem_append_left _ hu, h⟩
      simp only [hostLookup] at ha
      cases hl : cache.lookup (hostKey p.host p.port) with
      | some b => rw [hl] at ha; exact old ha
      | none =>
        rw [hl] at ha
        cases hdd : p.dns p.host p.port p.transport with
        | none => rw [hdd] at ha; exact old ha
        | some b =>
          rw [hdd] at ha
          simp only [List.lookup] at ha
          split at ha
          · next hk =>
            cases ha
            have hk : hostKey q.host q.port = hostKey p.host p.port := by simpa using hk
            obtain ⟨h1, h2⟩ := aux_cx_key (hp q (by simp [hq])) (hp p (by simp)) hk
            exact ⟨p, by simp, h1.symm, h2.symm, by rw [h1, h2]; exact hdd⟩
          · exact old ha

/-- The address is what the name service answered for this name and this port, now or at an earlier call. -/
theorem C92_lookup (qs : List HostQuery) (hp : ∀ q ∈ qs, ':' ∉ q.port.toList) (i : Nat) (q : HostQuery) (a : NetAddr) (hq : qs[i]? = some q)
    (ha : (hostLookups [] qs)[i]? = some (some a)) :
    ∃ p ∈ qs.take (i + 1), p.host = q.host ∧ p.port = q.port ∧ p.dns q.host q.port p.transport = some a := by
  simpa using aux_cx_lookups qs [] [] (by simpa using hp) (by simp) i q a hq ha

/-- The address is for the transport asked for if no name is used with both transports. -/
theorem C92_lookup_partial (qs : List HostQuery) (hd : dnsSane qs) (hp : ∀ q ∈ qs, ':' ∉ q.port.toList)
    (ht : ∀ q ∈ qs, ∀ q' ∈ qs, q.host = q'.host → q.port = q'.port → q.transport = q'.transport)
    (i : Nat) (q : HostQuery) (a : NetAddr) (hq : qs[i]? = some q) (ha : (hostLookups [] qs)[i]? = some (some a)) : a.family = q.transport := by
  obtain ⟨p, hm, h1, h2, h3⟩ := C92_lookup qs hp i q a hq ha
  have hm := List.mem_of_mem_take hm
  rw [← ht p hm q (List.mem_of_getElem? hq) h1 h2]
  exact hd p hm _ _ _ _ h3

/-- Two ports of the same name, with different addresses. -/
example : let qs : List HostQuery := [⟨"a", "1", .ipv4, fun _ _ t => some ⟨t, 5⟩⟩, ⟨"a", "2", .ipv6, fun _ _ t => some ⟨t, 6⟩⟩, ⟨"a", "1", .ipv4, fun _ _ _ => none⟩]
    dnsSane qs ∧ (∀ q ∈ qs, ':' ∉ q.port.toList) ∧
    (∀ q ∈ qs, ∀ q' ∈ qs, q.host = q'.host → q.port = q'.port → q.transport = q'.transport) ∧
    hostLookups [] qs = [some ⟨.ipv4, 5⟩, some ⟨.ipv6, 6⟩, some ⟨.ipv4, 5⟩] := by
  refine ⟨?_, ?_, ?_, by decide⟩
  · intro q hq h p t a ha
    simp only [List.mem_cons, List.not_mem_nil, or_false] at hq
    rcases hq with rfl | rfl | rfl <;> simp at ha <;> rw [← ha]
  · intro q hq
    simp only [List.mem_cons, List.not_mem_nil, or_false] at hq
    rcases hq with rfl | rfl | rfl <;> decide
  · intro q hq q' hq' e
    simp only [List.mem_cons, List.not_mem_nil, or_false] at hq hq'
    rcases hq with rfl | rfl | rfl <;> rcases hq' with rfl | rfl | rfl <;> simp

end Verif.Props
