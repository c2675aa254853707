import Verif.Spec.Proxy
/-!
# C63, C64: connections through others
-/
namespace Verif.Props
open Verif.Model Verif.Spec

/-! ### HTTP CONNECT -/

/-- The property: when the proxy opens the way, the session begins directly behind its answer, and the connection works
exactly if greetings are exchanged there; otherwise it does not work; the outcome is reported once; a connection that
works is known to go through a proxy. -/
def C63_statement : Prop :=
  (∀ (e : HttpEnv) (status : List Byte) (headers : List (List Byte)) (rest : List Byte), e.reached = true → httpLine status →
    (∀ h ∈ headers, httpLine h ∧ h ≠ []) → httpPositive status →
      (httpConnect e (httpText status headers ++ rest)).session = some rest ∧
      (httpConnect e (httpText status headers ++ rest)).ok = e.greet rest) ∧
  (∀ (e : HttpEnv) (status rest : List Byte), httpLine status → ¬ httpPositive status →
    (httpConnect e (status ++ lit "\r\n" ++ rest)).ok = false) ∧
  (∀ (e : HttpEnv) (s : List Byte), httpReported e (httpConnect e s) ∧
    ((httpConnect e s).ok = true → (httpConnect e s).proxied = true))

theorem aux_px_line (l : List Byte) : ∀ (n : Nat) (rest : List Byte), (10 : Byte) ∉ l → l.length + 2 ≤ n →
    takeLine n (l ++ lit "\r\n" ++ rest) = (l ++ lit "\r\n", rest) := by
  have hlit : lit "\r\n" = [13, 10] := by decide
  rw [hlit]
  induction l with
  | nil =>
    intro n rest _ hn
    obtain ⟨m, rfl⟩ : ∃ m, n = m + 2 := ⟨n - 2, by simp at hn; omega⟩
    simp [takeLine]
  | cons c l ih =>
    intro n rest hl hn
    obtain ⟨m, rfl⟩ : ∃ m, n = m + 1 := ⟨n - 1, by simp at hn; omega⟩
    have hc : c ≠ 10 := fun h => hl (by simp [h])
    have := ih m rest (fun h => hl (by simp [h])) (by simp at hn; omega)
    simp only [List.append_assoc, List.cons_append, List.nil_append] at this ⊢
    simp only [takeLine, hc, if_false, this]

theorem aux_px_positive (status : List Byte) (p : List Byte) (hp : p.length = 10) (h13 : (13 : Byte) ∉ p) :
    p.isPrefixOf (status ++ lit "\r\n") = true ↔ p <+: status := by
  have hlit : lit "\r\n" = [13, 10] := by decide
  rw [hlit, List.isPrefixOf_iff_prefix]
  constructor
  · intro h
    by_cases hs : 10 ≤ status.length
    · exact List.prefix_of_prefix_length_le h (List.prefix_append _ _) (by omega)
    · exfalso
      obtain ⟨t, ht⟩ := h
      have h1 : (p ++ t)[status.length]? = some 13 := by
        rw [ht, List.getElem?_append_right (by omega)]; simp
      rw [List.getElem?_append_left (by omega)] at h1
      exact h13 (List.mem_of_getElem? h1)
  · rintro ⟨t, rfl⟩
    exact ⟨t ++ [13, 10], by simp⟩

theorem aux_px_first (e : HttpEnv) (status rest : List Byte) (hr : e.reached = true) (hs : httpLine status) (hp : httpPositive status) :
    httpConnect e (status ++ lit "\r\n" ++ rest) = e.report (e.greet (takeLine 1023 rest).2) (some (takeLine 1023 rest).2) := by
  have hne : status ++ lit "\r\n" ++ rest ≠ [] := by simp [lit]
  have hpos : ((lit "HTTP/1.0 2").isPrefixOf (status ++ lit "\r\n") || (lit "HTTP/1.1 2").isPrefixOf (status ++ lit "\r\n")) = true := by
    rw [Bool.or_eq_true, aux_px_positive _ _ (by decide) (by decide), aux_px_positive _ _ (by decide) (by decide)]
    exact hp
  unfold httpConnect
  rw [if_neg (by simp [hr]), if_neg hne, aux_px_line status 1023 rest hs.1 hs.2]
  dsimp only
  rw [if_neg]
  intro h
  rw [Bool.and_eq_true, Bool.not_eq_true', Bool.not_eq_true'] at h
  rw [h.1, h.2] at hpos
  simp at hpos

theorem aux_px_negative (e : HttpEnv) (status rest : List Byte) (hr : e.reached = true) (hs : httpLine status) (hp : ¬ httpPositive status) :
    httpConnect e (status ++ lit "\r\n" ++ rest) = ⟨false, none, 0, !e.async, false⟩ := by
  have hne : status ++ lit "\r\n" ++ rest ≠ [] := by simp [lit]
  have hneg : ((lit "HTTP/1.0 2").isPrefixOf (status ++ lit "\r\n") || (lit "HTTP/1.1 2").isPrefixOf (status ++ lit "\r\n")) = false := by
    rw [← Bool.not_eq_true, Bool.or_eq_true, aux_px_positive _ _ (by decide) (by decide),
      aux_px_positive _ _ (by decide) (by decide)]
    exact hp
  rw [Bool.or_eq_false_iff] at hneg
  unfold httpConnect
  rw [if_neg (by simp [hr]), if_neg hne, aux_px_line status 1023 rest hs.1 hs.2]
  dsimp only
  rw [if_pos (by rw [hneg.1, hneg.2]; rfl)]

/-- An answer without header lines: the session begins directly behind it, the connection works exactly if greetings are
exchanged there, and this is reported once. Missing: answers with header lines, see `C63_header_left`. -/
theorem C63_session_partial (e : HttpEnv) (status rest : List Byte) (hr : e.reached = true) (hs : httpLine status)
    (hp : httpPositive status) :
    (httpConnect e (httpText status [] ++ rest)).session = some rest ∧
    (httpConnect e (httpText status [] ++ rest)).ok = e.greet rest ∧
    httpReported e (httpConnect e (httpText status [] ++ rest)) := by
  have h1 : httpText status [] ++ rest = status ++ lit "\r\n" ++ (lit "\r\n" ++ rest) := by simp [httpText]
  have h2 : takeLine 1023 (lit "\r\n" ++ rest) = (lit "\r\n", rest) := aux_px_line [] 1023 rest (by simp) (by simp)
  rw [h1, aux_px_first e status _ hr hs hp, h2]
  unfold HttpEnv.report httpReported
  cases e.async <;> simp

/-- A proxy that answers shortly, and a peer that exchanges greetings when the stream begins with `RPY`. -/
def aux_px_env (async : Bool) : HttpEnv := ⟨async, true, fun s => (lit "RPY").isPrefixOf s⟩

example : httpLine (lit "HTTP/1.0 200 OK") ∧ httpPositive (lit "HTTP/1.0 200 OK") ∧
    httpConnect (aux_px_env true) (lit "HTTP/1.0 200 OK\r\n\r\nRPY 0 0") = ⟨true, some (lit "RPY 0 0"), 1, false, false⟩ := by
  refine ⟨⟨by decide, by decide⟩, .inl ⟨lit "00 OK", by decide⟩, by decide +kernel⟩

/-- **Violation**: with header lines, only the first one is skipped; the others, and the empty line, are taken for the
beginning of the session. -/
theorem C63_header_left (e : HttpEnv) (status h rest : List Byte) (headers : List (List Byte)) (hr : e.reached = true)
    (hst : httpLine status) (hp : httpPositive status) (hh : httpLine h) :
    (httpConnect e (httpText status (h :: headers) ++ rest)).session =
      some (headers.flatMap (· ++ lit "\r\n") ++ lit "\r\n" ++ rest) := by
  have h1 : httpText status (h :: headers) ++ rest =
      status ++ lit "\r\n" ++ (h ++ lit "\r\n" ++ (headers.flatMap (· ++ lit "\r\n") ++ lit "\r\n" ++ rest)) := by
    simp [httpText]
  rw [h1, aux_px_first e status _ hr hst hp, aux_px_line h 1023 _ hh.1 hh.2]
  unfold HttpEnv.report
  cases e.async <;> simp

/-- The same with an answer as proxies give it: the connection fails. -/
theorem C63_usual_proxy_fails :
    httpConnect (aux_px_env false) (lit "HTTP/1.1 200 Connection established\r\nProxy-agent: x\r\n\r\nRPY 0 0") =
      ⟨false, some (lit "\r\nRPY 0 0"), 0, true, true⟩ := by decide +kernel

/-- A proxy that refuses: the connection does not work. -/
theorem C63_refused (e : HttpEnv) (status rest : List Byte) (hs : httpLine status) (hp : ¬ httpPositive status) :
    (httpConnect e (status ++ lit "\r\n" ++ rest)).ok = false := by
  cases hr : e.reached with
  | false => simp only [httpConnect, hr, HttpEnv.report]; cases e.async <;> simp
  | true => rw [aux_px_negative e status rest hr hs hp]

/-- **Violation**: and the handler is never called. -/
theorem C63_refused_not_reported (e : HttpEnv) (status rest : List Byte) (hr : e.reached = true) (ha : e.async = true)
    (hs : httpLine status) (hp : ¬ httpPositive status) :
    ¬ httpReported e (httpConnect e (status ++ lit "\r\n" ++ rest)) := by
  rw [aux_px_negative e status rest hr hs hp]
  simp [httpReported, ha]

example : httpLine (lit "HTTP/1.1 403 Forbidden") ∧ ¬ httpPositive (lit "HTTP/1.1 403 Forbidden") :=
  ⟨⟨by decide, by decide⟩, by unfold httpPositive; decide +kernel⟩

theorem aux_px_first_line (n : Nat) (s : List Byte) : (takeLine n s).1 = firstLine n s := by
  induction n generalizing s with
  | zero => simp [takeLine, firstLine]
  | succ n ih =>
    cases s with
    | nil => simp [takeLine, firstLine]
    | cons c s =>
      simp only [takeLine]
      by_cases hc : c = 10
      · simp [hc, firstLine]
      · simp [hc, firstLine, ih]

/-- In every other case, whatever the proxy sends, the outcome is reported once; a call without handler always returns the
connection. Missing: a refusal with a handler. -/
theorem C63_reported_partial (e : HttpEnv) (s : List Byte) (h : e.async = false ∨ e.reached = false ∨ s = [] ∨
      httpPositive (firstLine 1023 s)) : httpReported e (httpConnect e s) := by
  rw [← aux_px_first_line] at h
  unfold httpConnect
  have hrep : ∀ ok x, httpReported e (e.report ok x) := by
    intro ok x
    unfold HttpEnv.report httpReported
    cases e.async <;> simp
  split
  · exact hrep _ _
  · next hr =>
    split
    · exact hrep _ _
    · next hs =>
      dsimp only
      split
      · next hn =>
        rcases h with h | h | h | h
        · simp [httpReported, h]
        · simp [h] at hr
        · exact absurd h hs
        · exfalso
          rw [Bool.and_eq_true, Bool.not_eq_true', Bool.not_eq_true'] at hn
          rcases h with h | h
          · rw [← List.isPrefixOf_iff_prefix] at h; rw [h] at hn; simp at hn
          · rw [← List.isPrefixOf_iff_prefix] at h; rw [h] at hn; simp at hn
      · exact hrep _ _

example : httpPositive (firstLine 1023 (lit "HTTP/1.0 200 OK\r\nx")) :=
  .inl ⟨lit "00 OK\r\n", by decide +kernel⟩

/-- **Violation**: a connection made with a handler is not known to go through a proxy. -/
theorem C63_async_not_marked (e : HttpEnv) (s : List Byte) (h : e.async = true) : (httpConnect e s).proxied = false := by
  unfold httpConnect HttpEnv.report
  simp only [h, if_true]
  repeat' split
  all_goals rfl

/-- Without handler, a connection that works is. -/
theorem C63_marked_partial (e : HttpEnv) (s : List Byte) (h : e.async = false) (ho : (httpConnect e s).ok = true) :
    (httpConnect e s).proxied = true := by
  revert ho
  unfold httpConnect HttpEnv.report
  simp only [h]
  repeat' split
  all_goals simp_all

theorem C63_statement_false : ¬ C63_statement := by
  rintro ⟨_, _, h⟩
  refine C63_refused_not_reported (aux_px_env true) (lit "HTTP/1.1 403 Forbidden") [] rfl rfl ⟨by decide, by decide⟩ ?_ (h _ _).1
  unfold httpPositive; decide +kernel

/-! ### TUNNEL -/

/-- The property: a host in the middle passes on everything that comes from one side to the other one, unchanged and in
order, as long as both connections are open; never anything else; when one is closed, so is the other one; and it goes on
whatever happens. A connection is closed only when the peer closed it, or it broke. -/
def C64_statement : Prop :=
  ∀ ops : List TunnelOp, ∃ t, Tunnel.init.run ops = some t ∧ tunnelSound t ∧ (t.a.ok = t.b.ok) ∧
    (t.a.ok = true → tunnelFaithful t ∧ t.a.received = tunnelInput true ops ∧ t.b.received = tunnelInput false ops) ∧
    (t.a.ok = false → ∃ left r w, TunnelOp.readable left r w ∈ ops ∧ (r = .closed ∨ r = .error ∨ ∃ n, w = .stopped n true))

/-- **Violation**: a write given up without closing leaves a hole. -/
theorem C64_hole :
    Tunnel.init.run [.readable true (.octets [1, 2, 3]) (.stopped 1 false), .readable true (.octets [4]) .all] =
      some ⟨⟨true, false, [1, 2, 3, 4], []⟩, ⟨true, false, [], [1, 4]⟩⟩ := by decide

/-- **Violation**: a write that fails shuts the partner down, and only it. What comes next uses its memory. -/
theorem C64_released_partner :
    Tunnel.init.run [.readable true (.octets [1]) (.stopped 0 true)] = some ⟨⟨true, false, [1], []⟩, ⟨false, false, [], []⟩⟩ ∧
    Tunnel.init.run [.readable true (.octets [1]) (.stopped 0 true), .reap, .readable true (.octets [2]) .all] = none := by decide

/-- **Violation**: a read that finds nothing closes both. -/
theorem C64_nothing_to_read :
    Tunnel.init.run [.readable true (.octets [1]) .all, .readable false .wouldBlock .all] =
      some ⟨⟨false, false, [1], []⟩, ⟨false, false, [], [1]⟩⟩ := by decide

theorem C64_statement_false : ¬ C64_statement := by
  intro h
  obtain ⟨t, ht, _⟩ := h [.readable true (.octets [1]) (.stopped 0 true), .reap, .readable true (.octets [2]) .all]
  rw [C64_released_partner.2] at ht
  simp at ht

/-- What holds while all writes are completed. -/
def aux_px_inv (ia ib : List Byte) (t : Tunnel) : Prop :=
  tunnelFaithful t ∧ t.a.ok = t.b.ok ∧ (t.a.ok = true → t.a.freed = false ∧ t.b.freed = false ∧ t.a.received = ia ∧ t.b.received = ib)

theorem aux_px_input (left : Bool) (op : TunnelOp) (ops : List TunnelOp) :
    tunnelInput left (op :: ops) = tunnelInput left [op] ++ tunnelInput left ops := by
  cases op with
  | readable l r w => cases r <;> simp [tunnelInput]
  | reap => simp [tunnelInput]

theorem aux_px_step (ia ib : List Byte) (t : Tunnel) (op : TunnelOp) (hw : tunnelWriteDone op) (hr : tunnelReadDone op)
    (h : aux_px_inv ia ib t) :
    ∃ t', t.step op = some t' ∧ aux_px_inv (ia ++ tunnelInput true [op]) (ib ++ tunnelInput false [op]) t' ∧
      (t'.a.ok = false → t.a.ok = false ∨ ∃ left r w, op = .readable left r w ∧ (r = .closed ∨ r = .error)) := by
  obtain ⟨⟨h1, h2⟩, h3, h4⟩ := h
  obtain ⟨⟨oa, fa, ra, wa⟩, ⟨ob, fb, rb, wb⟩⟩ := t
  dsimp only at h1 h2 h3 h4
  subst h1 h2 h3
  cases op with
  | reap =>
    refine ⟨_, rfl, ⟨⟨rfl, rfl⟩, rfl, ?_⟩, fun h => .inl h⟩
    intro ho
    simp only [TunnelEnd.reap] at ho
    obtain ⟨g1, g2, g3, g4⟩ := h4 ho
    simp [TunnelEnd.reap, tunnelInput, ho, g1, g2, g3, g4]
  | readable left r w =>
    simp only [tunnelWriteDone] at hw
    subst hw
    cases oa with
    | false =>
      refine ⟨⟨⟨false, fa, wb, wa⟩, ⟨false, fb, wa, wb⟩⟩, ?_, ⟨⟨rfl, rfl⟩, rfl, by simp⟩, fun _ => .inl rfl⟩
      cases left <;> simp [Tunnel.step, tunnelPass]
    | true =>
      obtain ⟨g1, g2, g3, g4⟩ := h4 rfl
      subst g1 g2 g3 g4
      cases r with
      | wouldBlock => simp [tunnelReadDone] at hr
      | octets l =>
        cases left with
        | true =>
          exact ⟨_, rfl, by simp [aux_px_inv, tunnelFaithful, TunnelEnd.write, tunnelInput], by simp⟩
        | false =>
          exact ⟨_, rfl, by simp [aux_px_inv, tunnelFaithful, TunnelEnd.write, tunnelInput], by simp [TunnelEnd.write]⟩
      | closed =>
        cases left <;>
          exact ⟨_, rfl, by simp [aux_px_inv, tunnelFaithful], fun _ => .inr ⟨_, _, _, rfl, .inl rfl⟩⟩
      | error =>
        cases left <;>
          exact ⟨_, rfl, by simp [aux_px_inv, tunnelFaithful], fun _ => .inr ⟨_, _, _, rfl, .inr rfl⟩⟩

theorem aux_px_run (ops : List TunnelOp) : ∀ (ia ib : List Byte) (t : Tunnel), aux_px_inv ia ib t →
    (∀ op ∈ ops, tunnelWriteDone op) → (∀ op ∈ ops, tunnelReadDone op) →
    ∃ t', t.run ops = some t' ∧ aux_px_inv (ia ++ tunnelInput true ops) (ib ++ tunnelInput false ops) t' ∧
      (t'.a.ok = false → t.a.ok = false ∨ ∃ left r w, TunnelOp.readable left r w ∈ ops ∧ (r = .closed ∨ r = .error)) := by
  induction ops with
  | nil => intro ia ib t h _ _; exact ⟨t, rfl, by simpa [tunnelInput] using h, fun h => .inl h⟩
  | cons op ops ih =>
    intro ia ib t h hw hr
    obtain ⟨t1, h1, h2, h3⟩ := aux_px_step ia ib t op (hw op (by simp)) (hr op (by simp)) h
    obtain ⟨t2, h4, h5, h6⟩ := ih _ _ t1 h2 (fun x hx => hw x (by simp [hx])) (fun x hx => hr x (by simp [hx]))
    refine ⟨t2, by simp only [Tunnel.run, h1]; exact h4, ?_, ?_⟩
    · rw [aux_px_input true op ops, aux_px_input false op ops, ← List.append_assoc, ← List.append_assoc]; exact h5
    · intro ho
      rcases h6 ho with h7 | ⟨l, r, w, h7, h8⟩
      · rcases h3 h7 with h9 | ⟨l, r, w, rfl, h8⟩
        · exact .inl h9
        · exact .inr ⟨l, r, w, by simp, h8⟩
      · exact .inr ⟨l, r, w, by simp [h7], h8⟩

/-- As long as all writes are completed and no read finds nothing, for every history: no memory is used after its release,
what was written to one side is exactly what was read from the other one, both connections are open or both closed; while
they are open everything that arrived was passed on; they are closed only because one was closed or broke. Missing: other
results of reads and writes, see the violations. -/
theorem C64_faithful_partial (ops : List TunnelOp) (hw : ∀ op ∈ ops, tunnelWriteDone op) (hr : ∀ op ∈ ops, tunnelReadDone op) :
    ∃ t, Tunnel.init.run ops = some t ∧ tunnelFaithful t ∧ t.a.ok = t.b.ok ∧
      (t.a.ok = true → t.a.received = tunnelInput true ops ∧ t.b.received = tunnelInput false ops) ∧
      (t.a.ok = false → ∃ left r w, TunnelOp.readable left r w ∈ ops ∧ (r = .closed ∨ r = .error)) := by
  obtain ⟨t, h1, ⟨h2, h3, h4⟩, h5⟩ := aux_px_run ops [] [] Tunnel.init
    ⟨⟨rfl, rfl⟩, rfl, fun _ => ⟨rfl, rfl, rfl, rfl⟩⟩ hw hr
  refine ⟨t, h1, h2, h3, fun ho => ?_, fun ho => ?_⟩
  · have := h4 ho; simpa using this.2.2
  · rcases h5 ho with h6 | h6
    · simp [Tunnel.init, TunnelEnd.init] at h6
    · exact h6

example : Tunnel.init.run [.readable true (.octets [1, 2]) .all, .readable false (.octets [3]) .all, .readable true .closed .all, .reap] =
    some ⟨⟨false, true, [1, 2], [3]⟩, ⟨false, true, [3], [1, 2]⟩⟩ := by decide

theorem aux_px_added (ops : List TunnelOp) : ∀ (t t' : Tunnel), List.Sublist t.b.written t.a.received →
    List.Sublist t.a.written t.b.received → t.run ops = some t' →
    List.Sublist t'.b.written t'.a.received ∧ List.Sublist t'.a.written t'.b.received := by
  induction ops with
  | nil => intro t t' h1 h2 h; simp [Tunnel.run] at h; subst h; exact ⟨h1, h2⟩
  | cons op ops ih =>
    intro t t' h1 h2 h
    unfold Tunnel.run at h
    split at h
    · simp at h
    · next t1 hs =>
      have key : ∀ (c p : TunnelEnd) r w x, List.Sublist p.written c.received → List.Sublist c.written p.received →
          tunnelPass c p r w = some x → List.Sublist x.2.written x.1.received ∧ List.Sublist x.1.written x.2.received := by
        intro c p r w x g1 g2 hp
        unfold tunnelPass at hp
        split at hp
        · simp at hp; subst hp; exact ⟨g1, g2⟩
        · split at hp
          · simp at hp
          · cases r with
            | octets l =>
              simp at hp; subst hp
              cases w with
              | all =>
                unfold TunnelEnd.write
                dsimp only
                split
                · exact ⟨g1.append (List.Sublist.refl _), g2⟩
                · exact ⟨g1.trans (List.sublist_append_left _ _), g2⟩
              | stopped n shut =>
                unfold TunnelEnd.write
                dsimp only
                split
                · exact ⟨g1.append (List.take_sublist _ _), g2⟩
                · exact ⟨g1.trans (List.sublist_append_left _ _), g2⟩
            | closed => simp at hp; subst hp; exact ⟨g1, g2⟩
            | wouldBlock => simp at hp; subst hp; exact ⟨g1, g2⟩
            | error => simp at hp; subst hp; exact ⟨g1, g2⟩
      cases op with
      | reap =>
        simp [Tunnel.step] at hs; subst hs
        exact ih _ _ (by simpa [TunnelEnd.reap] using h1) (by simpa [TunnelEnd.reap] using h2) h
      | readable left r w =>
        cases left with
        | true =>
          simp only [Tunnel.step, Option.map_eq_some_iff] at hs
          obtain ⟨x, hx, rfl⟩ := hs
          obtain ⟨g1, g2⟩ := key _ _ _ _ _ h1 h2 hx
          exact ih _ _ g1 g2 h
        | false =>
          simp only [Tunnel.step, Option.map_eq_some_iff] at hs
          obtain ⟨x, hx, rfl⟩ := hs
          obtain ⟨g1, g2⟩ := key _ _ _ _ _ h2 h1 hx
          exact ih _ _ g2 g1 h

/-- Whatever the results of reads and writes are: what one side gets are octets of the other side, in their order
(possibly with holes). -/
theorem C64_nothing_added (ops : List TunnelOp) (t : Tunnel) (h : Tunnel.init.run ops = some t) :
    List.Sublist t.b.written t.a.received ∧ List.Sublist t.a.written t.b.received :=
  aux_px_added ops Tunnel.init t (List.Sublist.refl _) (List.Sublist.refl _) h

example : ∃ t, Tunnel.init.run [.readable true (.octets [1, 2, 3]) (.stopped 1 false), .readable true (.octets [4]) .all] = some t ∧
    t.b.written = [1, 4] := ⟨_, C64_hole, rfl⟩

end Verif.Props
