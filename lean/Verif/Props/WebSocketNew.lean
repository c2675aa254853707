import Verif.Spec.WebSocketNew
/-!
# BEEP connections over WebSocket
-/
namespace Verif.Props
open Verif.Model Verif.Spec

theorem aux_wb_last (pick : WbItem → Option α) (get : WbSetup → α) (hget : ∀ s i, get (s.conf i) = (pick i).getD (get s))
    (s : WbSetup) (items : List WbItem) : get (items.foldl WbSetup.conf s) = wbLast pick (get s) items := by
  induction items generalizing s with
  | nil => rfl
  | cons i items ih =>
    rw [List.foldl_cons, ih, hget]
    unfold wbLast
    cases h : pick i with
    | none => simp [List.filterMap_cons, h]
    | some v =>
      simp only [List.filterMap_cons, h, Option.getD_some]
      cases hl : items.filterMap pick with
      | nil => rfl
      | cons a l =>
        rw [List.getLast?_cons_cons]
        cases hg : (a :: l).getLast? with
        | none => simp at hg
        | some w => rfl

/-- noPoll is asked for the host and port given, with the last Host and Origin headers set, or those made of the host,
with TLS if it was last set, whatever else was set before and in which order. -/
theorem C122_request (items : List WbItem) (host port : List Byte) (timeout : Int) :
    ((wbSetup items).request host port timeout).host = host ∧
    ((wbSetup items).request host port timeout).port = port ∧
    ((wbSetup items).request host port timeout).header = (wbLast wbHost none items).getD host ∧
    ((wbSetup items).request host port timeout).origin = (wbLast wbOrigin none items).getD (lit "http://" ++ host) ∧
    (((wbSetup items).request host port timeout).tls = true ↔ wbLast wbTls 0 items ≠ 0) := by
  have h1 := aux_wb_last wbHost WbSetup.hostHeader (fun s i => by cases i <;> rfl) WbSetup.new items
  have h2 := aux_wb_last wbOrigin WbSetup.origin (fun s i => by cases i <;> rfl) WbSetup.new items
  have h3 := aux_wb_last wbTls WbSetup.useWss (fun s i => by cases i <;> rfl) WbSetup.new items
  simp only [wbSetup, WbSetup.request, h1, h2, h3]
  exact ⟨trivial, trivial, rfl, rfl, decide_eq_true_iff⟩

/-- If the setting was given, certificates are verified as it was last given. -/
theorem C122_verify_partial (items : List WbItem) (v : Int) (hv : .verify v ∈ items) (host port : List Byte) (timeout : Int)
    (ht : ((wbSetup items).request host port timeout).tls = true) :
    (((wbSetup items).request host port timeout).verify = true ↔ wbLast wbVerify 1 items ≠ 0) := by
  have h3 := aux_wb_last wbVerify WbSetup.certVerify (fun s i => by cases i <;> rfl) WbSetup.new items
  have hd : wbLast wbVerify 0 items = wbLast wbVerify 1 items := by
    unfold wbLast
    cases hl : items.filterMap wbVerify with
    | nil =>
      have : v ∈ items.filterMap wbVerify := List.mem_filterMap.mpr ⟨_, hv, rfl⟩
      rw [hl] at this
      simp at this
    | cons a l =>
      cases hg : (a :: l).getLast? with
      | none => simp at hg
      | some w => rfl
  have h4 : (wbSetup items).certVerify = wbLast wbVerify 1 items := by
    rw [← hd]
    exact h3
  simp only [WbSetup.request, decide_eq_true_eq] at ht
  simp only [WbSetup.request, h4]
  rw [if_pos ht]
  simp

/-- The wait is the connect timeout of the context in whole seconds, from one second on, and one minute without. -/
theorem C122_wait_partial (s : WbSetup) (host port : List Byte) (timeout : Int) (h : timeout ≤ 0 ∨ 1000000 ≤ timeout) :
    if timeout ≤ 0 then (s.request host port timeout).wait = 60
    else (s.request host port timeout).wait * 1000000 ≤ timeout ∧ timeout < ((s.request host port timeout).wait + 1) * 1000000 := by
  simp only [WbSetup.request]
  grind

/-- A connection is told to be a WebSocket with TLS only if TLS was asked for and the connection works; it has the
server name that the Host header has. -/
theorem C122_connection (s : WbSetup) (host port : List Byte) (timeout : Int) (net : WbNet) (c : WbConn)
    (hc : s.connect host net = some c) :
    c.webSocket = true ∧ c.serverName = (s.request host port timeout).header ∧
    (c.tls = true ↔ c.isOk = true ∧ (s.request host port timeout).tls = true) ∧ (c.isOk = true ↔ net = .ready) := by
  cases net <;> simp [WbSetup.connect] at hc <;> subst hc <;> simp [WbSetup.request]

/-- In a shared port WebSocket is found for `GET` and for TLS 1.0 records, and for nothing else. -/
theorem C122_detect (a b c : Nat) :
    (wbDetect a b c = some false ↔ [a, b, c] = [71, 69, 84]) ∧ (wbDetect a b c = some true ↔ [a, b, c] = [22, 3, 1]) := by
  unfold wbDetect
  constructor <;> split <;> simp_all <;> grind

structure WbInv (s : WbRefs) : Prop where
  good : s.bad = false
  refs : s.refs = s.owned + s.tasks
  frees : s.frees = if s.refs = 0 then 1 else 0

theorem aux_wb_step (s : WbRefs) (op : WbRefOp) (h : WbInv s) (hk : op ≠ .task → 0 < s.owned) : WbInv (s.step op) := by
  obtain ⟨h1, h2, h3⟩ := h
  cases op <;> simp only [WbRefs.step, WbRefs.drop] <;> constructor <;> grind

/-- Setups are released once, exactly when the application gave its references away and all connections were made, and
are not used later, in every history in which it uses them while it has references. -/
theorem C122_setup (ops : List WbRefOp) (hk : WbObeys WbRefs.new ops) :
    (WbRefs.new.run ops).bad = false ∧ (WbRefs.new.run ops).frees ≤ 1 ∧
    ((WbRefs.new.run ops).frees = 1 ↔ (WbRefs.new.run ops).owned = 0 ∧ (WbRefs.new.run ops).tasks = 0) := by
  have key : ∀ (s : WbRefs) (ops : List WbRefOp), WbInv s → WbObeys s ops → WbInv (s.run ops) := by
    intro s ops
    induction ops generalizing s with
    | nil => exact fun h _ => h
    | cons op ops ih => exact fun h hk => ih _ (aux_wb_step s op h hk.1) hk.2
  obtain ⟨h1, h2, h3⟩ := key _ ops ⟨rfl, rfl, rfl⟩ hk
  refine ⟨h1, ?_, ?_⟩ <;> grind

/-- The number of values lost: those of Origin and Host replaced by others. -/
theorem C122_lost (items : List WbItem) : (wbSetup items).lost ≤ (items.filterMap wbOrigin).length + (items.filterMap wbHost).length := by
  have key : ∀ (s : WbSetup) (items : List WbItem), (items.foldl WbSetup.conf s).lost ≤ s.lost + (items.filterMap wbOrigin).length + (items.filterMap wbHost).length := by
    intro s items
    induction items generalizing s with
    | nil => simp
    | cons i items ih =>
      have := ih (s.conf i)
      rw [List.foldl_cons]
      cases i <;> simp [WbSetup.conf, wbOrigin, wbHost, List.filterMap_cons] at this ⊢ <;> grind
  have := key WbSetup.new items
  simpa [wbSetup, WbSetup.new] using this

/-! ## What the code gets wrong -/

/-- By default, certificate verification is enabled (web-socket/vortex_websocket.h:100-105); the wait is at most the
timeout set; values replaced are released. -/
def C122_statement : Prop := ∀ (items : List WbItem) (host port : List Byte) (timeout : Int),
  (((wbSetup items).request host port timeout).tls = true →
    (((wbSetup items).request host port timeout).verify = true ↔ wbLast wbVerify 1 items ≠ 0)) ∧
  (0 < timeout → ((wbSetup items).request host port timeout).wait * 1000000 ≤ timeout) ∧ (wbSetup items).lost = 0

/-- TLS is asked for and nothing else: certificates are not verified. -/
theorem C122_not_verified (host port : List Byte) (timeout : Int) :
    ((wbSetup [.tls 1]).request host port timeout).tls = true ∧ ((wbSetup [.tls 1]).request host port timeout).verify = false := by
  constructor <;> rfl

/-- Every timeout below one second is taken for a minute. -/
theorem C122_short_timeout (s : WbSetup) (host port : List Byte) (timeout : Int) (h0 : 0 < timeout) (h1 : timeout < 1000000) :
    (s.request host port timeout).wait = 60 := by
  simp only [WbSetup.request]
  rw [if_pos h0, if_pos (by omega)]

/-- The Origin set twice: the first value is lost. -/
theorem C122_origin_lost (a b : List Byte) : (wbSetup [.origin (some a), .origin (some b)]).lost = 1 := rfl

/-- TLS records of version 3.3, that many clients send, are not taken for WebSocket. -/
theorem C122_tls_not_found : wbDetect 22 3 3 = none := by decide

theorem C122_statement_false : ¬ C122_statement := by
  intro h
  have := (h [.origin (some []), .origin (some [])] [] [] 0).2.2
  rw [C122_origin_lost] at this
  cases this

example : ((wbSetup [.verify 0, .tls 1, .host (some (lit "a")), .verify 1, .origin none]).request (lit "b") (lit "443") 5000000) =
    ⟨true, true, lit "b", lit "443", lit "a", lit "http://b", 5⟩ := by decide +kernel

example : WbObeys WbRefs.new [.conf, .ref, .connectThreaded, .conf, .connect, .task] ∧
    (WbRefs.new.run [.conf, .ref, .connectThreaded, .conf, .connect, .task]).frees = 1 := by
  refine ⟨?_, by decide⟩
  simp [WbObeys, WbRefs.new, WbRefs.step, WbRefs.drop]

end Verif.Props
