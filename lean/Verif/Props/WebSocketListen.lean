import Verif.Model.WebSocketListen
/-!
# C128: WebSocket listeners
-/
namespace Verif.Props
open Verif.Model

/-- A connection that is ready. -/
structure WkOk (c : WkConn) : Prop where
  host : c.ws = true → c.phase = .ready → c.host.isSome = true
  name : c.ws = true → c.phase = .ready → c.serverName.isSome = true
  tls : c.ws = true → c.phase = .ready → c.tlsFlag = c.tls
  shaken : c.ws = true → c.phase = .ready → c.shaken = true
  flag : c.tlsFlag = true → c.tls = true
  fresh : c.shaken = false → c.tls = false

theorem aux_wk_post (c : WkConn) : c.post.ws = c.ws ∧ c.post.shaken = c.shaken ∧ c.post.host = c.host ∧ c.post.tls = c.tls ∧
    (c.ws = true → c.post.phase ≠ .closed → c.host.isSome = true ∧ c.post.serverName.isSome = true ∧ (c.tls = true → c.post.tlsFlag = true)) ∧
    (c.post.phase = c.phase ∨ c.post.phase = .closed) ∧ (c.serverName.isSome = true → c.post.serverName = c.serverName) ∧
    (c.tlsFlag = true → c.post.tlsFlag = true) ∧ ((c.tlsFlag = true → c.tls = true) → c.post.tlsFlag = true → c.tls = true) ∧
    (c.phase = .closed → c.post = c) := by
  obtain ⟨p, ws, sh, host, tls, nm, fl⟩ := c
  simp only [WkConn.post]
  cases host <;> cases nm <;> cases p <;> grind

theorem aux_wk_posts (n : Nat) : ∀ c : WkConn, (c.posts n).ws = c.ws ∧ (c.posts n).shaken = c.shaken ∧ (c.posts n).host = c.host ∧ (c.posts n).tls = c.tls ∧
    ((c.posts n).phase = c.phase ∨ (c.posts n).phase = .closed) ∧ (c.serverName.isSome = true → (c.posts n).serverName = c.serverName) ∧
    (c.tlsFlag = true → (c.posts n).tlsFlag = true) ∧ ((c.tlsFlag = true → c.tls = true) → (c.posts n).tlsFlag = true → c.tls = true) ∧
    (c.phase = .closed → c.posts n = c) ∧
    (0 < n → c.ws = true → (c.posts n).phase ≠ .closed → c.host.isSome = true ∧ (c.posts n).serverName.isSome = true ∧ (c.tls = true → (c.posts n).tlsFlag = true)) := by
  induction n with
  | zero => intro c; simp [WkConn.posts]
  | succ n ih =>
    intro c
    have hp := aux_wk_post c
    have hi := ih c.post
    simp only [WkConn.posts]
    obtain ⟨p1, p2, p3, p4, p5, p6, p7, p8, p9, p10⟩ := hp
    obtain ⟨i1, i2, i3, i4, i5, i6, i7, i8, i9, i10⟩ := hi
    have hc : (c.post.posts n).phase ≠ .closed → c.post.phase ≠ .closed := by
      intro h h'; rw [i9 h'] at h; exact h h'
    generalize c.post.posts n = d at *
    generalize c.post = e at *
    refine ⟨by grind, by grind, by grind, by grind, by grind, by grind, by grind, by grind, by grind, ?_⟩
    intro _ hw hn
    have := p5 hw (hc hn)
    refine ⟨this.1, ?_, fun ht => i7 (this.2.2 ht)⟩
    rw [i6 this.2.1]; exact this.2.1

theorem aux_wk_greet (c : WkConn) (n : Nat) (hn : c.ws = true → 0 < n) (h : WkOk c) : WkOk (c.greet n) := by
  simp only [WkConn.greet]
  split
  · rename_i hc
    have hp := aux_wk_posts n c
    obtain ⟨i1, i2, i3, i4, i5, i6, i7, i8, i9, i10⟩ := hp
    obtain ⟨h1, h2, h3, h4, h5, h6⟩ := h
    generalize c.posts n = d at *
    split
    · constructor <;> grind
    · have ht : d.ws = true → d.tlsFlag = d.tls := by
        intro hw
        have := i10 (hn (i1 ▸ hw)) (i1 ▸ hw) (by assumption)
        rw [i4]
        cases hd : d.tlsFlag <;> cases hc : c.tls <;> simp_all
      constructor <;> grind
  · exact h

structure WkInv (s : Wk) : Prop where
  flag : s.flag = true → 0 < s.actions
  inst : s.installed ≠ [] → 0 < s.actions
  lis : 0 < s.listeners → 0 < s.actions
  shr : 0 < s.shared → 0 < s.actions
  conns : s.conns ≠ [] → 0 < s.actions
  ok : ∀ (i : Nat) c, s.conns[i]? = some c → WkOk c

theorem aux_wk_modify (l : List WkConn) (j : Nat) (f : WkConn → WkConn) (P : WkConn → Prop) (h : ∀ (i : Nat) c, l[i]? = some c → P c)
    (hf : ∀ c, P c → P (f c)) : ∀ (i : Nat) c, (l.modify j f)[i]? = some c → P c := by
  intro i c hc
  rw [List.getElem?_modify] at hc
  rcases hg : l[i]? with _ | g
  · rw [hg] at hc; simp at hc
  · rw [hg] at hc
    simp only [Option.map_eq_map, Option.map_some, Option.some.injEq] at hc
    subst hc
    split
    · exact hf g (h i g hg)
    · exact h i g hg

theorem aux_wk_append (l : List WkConn) (x : WkConn) (P : WkConn → Prop) (h : ∀ (i : Nat) c, l[i]? = some c → P c) (hx : P x) :
    ∀ (i : Nat) c, (l ++ [x])[i]? = some c → P c := by
  intro i c hc
  have hm := List.mem_of_getElem? hc
  rcases List.mem_append.mp hm with hm | hm
  · obtain ⟨k, hk⟩ := List.getElem?_of_mem hm
    exact h k c hk
  · simp at hm; rw [hm]; exact hx

theorem aux_wk_step (s : Wk) (op : WkOp) (h : WkInv s) : WkInv (s.step op) := by
  obtain ⟨h1, h2, h3, h4, h5, h6⟩ := h
  have hnew : ∀ (p : WkPhase) (w : Bool), p ≠ .ready → WkOk ⟨p, w, false, none, false, none, false⟩ := by
    intro p w hp; constructor <;> simp_all
  have hnil : ∀ (j : Nat) (f : WkConn → WkConn), s.conns.modify j f ≠ [] → s.conns ≠ [] := by
    intro j f hm he; rw [he] at hm; exact hm (by simp)
  cases op with
  | check t => simp only [Wk.step]; split <;> (try split) <;> constructor <;> grind
  | install t => simp only [Wk.step]; split <;> constructor <;> grind
  | listen t b =>
    simp only [Wk.step]
    split
    · rename_i ht
      have hp : 0 < s.actions := h2 (List.ne_nil_of_mem ht)
      exact ⟨fun _ => hp, fun _ => hp, fun _ => hp, fun _ => hp, fun _ => hp, h6⟩
    · exact ⟨h1, h2, h3, h4, h5, h6⟩
  | share t =>
    simp only [Wk.step]
    split
    · rename_i ht
      have hp : 0 < s.actions := h2 (List.ne_nil_of_mem ht)
      exact ⟨fun _ => hp, fun _ => hp, fun _ => hp, fun _ => hp, fun _ => hp, h6⟩
    · exact ⟨h1, h2, h3, h4, h5, h6⟩
  | accept ok =>
    simp only [Wk.step]
    split
    · rename_i hl
      exact ⟨h1, h2, h3, h4, fun _ => h3 hl.1, aux_wk_append _ _ _ h6 (hnew _ _ (by simp))⟩
    · exact ⟨h1, h2, h3, h4, h5, h6⟩
  | acceptShared web ok =>
    simp only [Wk.step]
    split
    · rename_i hl
      split
      · split
        · exact ⟨h1, h2, h3, h4, fun _ => h4 hl, aux_wk_append _ _ _ h6 (hnew _ _ (by simp))⟩
        · exact ⟨h1, h2, h3, h4, fun _ => h4 hl, aux_wk_append _ _ _ h6 (hnew _ _ (by simp))⟩
      · exact ⟨h1, h2, h3, h4, fun _ => h4 hl, aux_wk_append _ _ _ h6 (hnew _ _ (by simp))⟩
    · exact ⟨h1, h2, h3, h4, h5, h6⟩
  | handshake c host tls =>
    refine ⟨h1, h2, h3, h4, fun hm => h5 (hnil _ _ hm), aux_wk_modify _ _ _ _ h6 ?_⟩
    intro x hx
    obtain ⟨a1, a2, a3, a4, a5, a6⟩ := hx
    split
    · rename_i hs
      have hnr : x.phase ≠ .ready := by intro hr; have := a4 hs.1 hr; simp [this] at hs
      have hfl : x.tlsFlag = true → tls = true := by
        intro hf; have := a5 hf; have := a6 (by simpa using hs.2); simp_all
      constructor <;> grind
    · exact ⟨a1, a2, a3, a4, a5, a6⟩
  | name c n =>
    refine ⟨h1, h2, h3, h4, fun hm => h5 (hnil _ _ hm), aux_wk_modify _ _ _ _ h6 ?_⟩
    intro x hx
    obtain ⟨a1, a2, a3, a4, a5, a6⟩ := hx
    constructor <;> grind
  | greet c =>
    refine ⟨h1, h2, h3, h4, fun hm => h5 (hnil _ _ hm), ?_⟩
    by_cases hz : s.conns = []
    · simp [Wk.step, hz]
    · exact aux_wk_modify _ _ _ _ h6 fun x hx => aux_wk_greet x _ (fun _ => h5 hz) hx

theorem aux_wk_run (ops : List WkOp) : ∀ s : Wk, WkInv s → WkInv (s.run ops) := by
  induction ops with
  | nil => intro s h; exact h
  | cons o ops ih => intro s h; exact ih _ (aux_wk_step s o h)

theorem aux_wk_init : WkInv Wk.init := by constructor <;> simp [Wk.init]

/-- **C128**, part: a connection over WebSocket that is given to the profiles finished its handshake with a `Host` header, has a server
name, and tells that TLS runs just if it does. -/
theorem C128_ready_partial (ops : List WkOp) (i : Nat) (c : WkConn) (h : (Wk.init.run ops).conns[i]? = some c) (hw : c.ws = true)
    (hr : c.phase = .ready) : c.shaken = true ∧ c.host.isSome = true ∧ c.serverName.isSome = true ∧ c.tlsFlag = c.tls :=
  have hk := (aux_wk_run ops _ aux_wk_init).ok i c h
  ⟨hk.shaken hw hr, hk.host hw hr, hk.name hw hr, hk.tls hw hr⟩

example : (Wk.init.run [.check 0, .install 0, .listen 0 false, .accept true, .handshake 0 (some 7) true, .greet 0]).conns =
    [⟨.ready, true, true, some 7, true, some 7, true⟩] := by decide +kernel

example : (Wk.init.run [.check 0, .install 0, .share 0, .acceptShared true true, .handshake 0 none true, .greet 0,
    .acceptShared false false, .greet 1]).conns =
    [⟨.closed, true, true, none, true, none, false⟩, ⟨.ready, false, false, none, false, none, false⟩] := by decide +kernel

/-- Every server name came from the `Host` header. -/
def WkNamed (c : WkConn) : Prop := c.serverName = none ∨ (c.serverName = c.host ∧ c.shaken = true)

theorem aux_wk_namedPost (c : WkConn) (hs : c.ws = true → c.shaken = true) (h : WkNamed c) : WkNamed c.post := by
  obtain ⟨p, ws, sh, host, tls, nm, fl⟩ := c
  simp only [WkConn.post, WkNamed] at *
  cases host <;> cases nm <;> grind

theorem aux_wk_namedPosts (n : Nat) : ∀ c : WkConn, (c.ws = true → c.shaken = true) → WkNamed c → WkNamed (c.posts n) := by
  induction n with
  | zero => intro c _ h; exact h
  | succ n ih =>
    intro c hs h
    have hp := aux_wk_post c
    exact ih _ (by rw [hp.1, hp.2.1]; exact hs) (aux_wk_namedPost c hs h)

theorem aux_wk_namedStep (s : Wk) (op : WkOp) (hop : ∀ c n, op ≠ .name c n) (h : ∀ (i : Nat) c, s.conns[i]? = some c → WkNamed c) :
    ∀ (i : Nat) c, (s.step op).conns[i]? = some c → WkNamed c := by
  cases op with
  | check t => simp only [Wk.step]; split <;> (try split) <;> exact h
  | install t => simp only [Wk.step]; split <;> exact h
  | listen t b => simp only [Wk.step]; split <;> exact h
  | share t => simp only [Wk.step]; split <;> exact h
  | accept ok =>
    simp only [Wk.step]
    split
    · exact aux_wk_append _ _ _ h (Or.inl rfl)
    · exact h
  | acceptShared web ok =>
    simp only [Wk.step]
    split
    · split
      · split <;> exact aux_wk_append _ _ _ h (Or.inl rfl)
      · exact aux_wk_append _ _ _ h (Or.inl rfl)
    · exact h
  | handshake c host tls =>
    refine aux_wk_modify _ _ _ _ h fun x hx => ?_
    simp only [WkNamed] at *
    split <;> grind
  | name c n => exact absurd rfl (hop c n)
  | greet c =>
    refine aux_wk_modify _ _ _ _ h fun x hx => ?_
    simp only [WkConn.greet]
    split
    · rename_i hc
      have := aux_wk_namedPosts s.actions x hc.2 hx
      split
      · exact this
      · simpa [WkNamed] using this
    · exact hx

theorem aux_wk_namedRun (ops : List WkOp) (hops : ∀ c n, WkOp.name c n ∉ ops) : ∀ s : Wk, (∀ (i : Nat) c, s.conns[i]? = some c → WkNamed c) →
    ∀ (i : Nat) c, (s.run ops).conns[i]? = some c → WkNamed c := by
  induction ops with
  | nil => intro s h; exact h
  | cons o ops ih =>
    intro s h
    exact ih (fun c n hm => hops c n (List.mem_cons_of_mem _ hm)) _
      (aux_wk_namedStep s o (fun c n ho => hops c n (by simp [ho])) h)

/-- **C128**, part: if the application sets no server name, the server name of such a connection is the host its peer asked for. -/
theorem C128_name_partial (ops : List WkOp) (hops : ∀ c n, WkOp.name c n ∉ ops) (i : Nat) (c : WkConn)
    (h : (Wk.init.run ops).conns[i]? = some c) (hw : c.ws = true) (hr : c.phase = .ready) : c.serverName = c.host := by
  have h1 := (aux_wk_run ops _ aux_wk_init).ok i c h
  have h2 := aux_wk_namedRun ops hops Wk.init (by simp [Wk.init]) i c h
  have h3 := h1.name hw hr
  rcases h2 with h2 | h2
  · rw [h2] at h3; simp at h3
  · exact h2.1

/-- A name that was set before stays. -/
example : (Wk.init.run [.check 0, .install 0, .listen 0 false, .accept true, .handshake 0 (some 7) true, .name 0 3, .greet 0]).conns =
    [⟨.ready, true, true, some 7, true, some 3, true⟩] := by decide +kernel

theorem aux_wk_once (t0 : Nat) (ops : List WkOp) (h1 : ∀ t, WkOp.check t ∈ ops → t = t0) : ∀ s : Wk,
    (s.installing = [] ∨ s.installing = [t0] ∧ s.flag = false) → (s.flag = false → s.actions = 0) → s.actions ≤ 1 →
    (s.run ops).actions ≤ 1 := by
  induction ops with
  | nil => intro s _ _ h; exact h
  | cons o ops ih =>
    intro s ha hb hc
    refine ih (fun t ht => h1 t (List.mem_cons_of_mem _ ht)) _ ?_ ?_ ?_
    all_goals
      cases o <;> simp only [Wk.step] <;> (repeat' split) <;> grind

/-- **C128**, part: if one thread starts all listeners, the function is installed once. -/
theorem C128_once_partial (t0 : Nat) (ops : List WkOp) (h : ∀ t, WkOp.check t ∈ ops → t = t0) : (Wk.init.run ops).actions ≤ 1 :=
  aux_wk_once t0 ops h _ (Or.inl rfl) (fun _ => rfl) (by simp [Wk.init])

example : (Wk.init.run [.check 0, .install 0, .listen 0 false, .check 0, .install 0, .share 0]).actions = 1 := by decide +kernel

/-- Two threads install it twice. -/
theorem C128_twice : (Wk.init.run [.check 0, .check 1, .install 0, .install 1]).actions = 2 := by decide +kernel

/-- A handler to be told is never called, and the caller gets no listener, which accepts connections all the same. -/
theorem C128_silent : let s := Wk.init.run [.check 0, .install 0, .listen 0 true, .accept true]
    s.returned = [false] ∧ s.told = 0 ∧ s.listeners = 1 ∧ s.conns.length = 1 := by decide +kernel

/-- Every connection to a shared port that noPoll does not take leaves a connection of noPoll behind. -/
theorem C128_lost (n : Nat) : (Wk.init.run ([.check 0, .install 0, .share 0] ++ List.replicate n (.acceptShared true false))).lost = n := by
  have : ∀ (n : Nat) (s : Wk), 0 < s.shared → (s.run (List.replicate n (.acceptShared true false))).lost = s.lost + n := by
    intro n
    induction n with
    | zero => intro s _; rfl
    | succ n ih =>
      intro s hs
      have hst : s.step (.acceptShared true false) =
          { s with conns := s.conns ++ [⟨.closed, false, false, none, false, none, false⟩], lost := s.lost + 1 } := by
        simp [Wk.step, hs]
      rw [List.replicate_succ]
      show ((s.step (.acceptShared true false)).run _).lost = _
      rw [ih _ (by rw [hst]; exact hs), hst]
      simp only; omega
  have h := this n (Wk.init.run [.check 0, .install 0, .share 0]) (by decide +kernel)
  have h0 : (Wk.init.run [.check 0, .install 0, .share 0]).lost = 0 := by decide +kernel
  rw [h0, Nat.zero_add] at h
  rw [Wk.run, List.foldl_append]
  exact h

/-- **C128**, the full property. -/
def C128_statement : Prop :=
  ∀ ops : List WkOp, let s := Wk.init.run ops
    s.actions ≤ 1 ∧ s.told = s.returned.count false ∧ s.lost = 0 ∧
    ∀ (i : Nat) (c : WkConn), s.conns[i]? = some c → c.ws = true → c.phase = .ready →
      c.host.isSome = true ∧ c.serverName.isSome = true ∧ ((∀ c n, WkOp.name c n ∉ ops) → c.serverName = c.host) ∧ c.tlsFlag = c.tls

theorem C128_statement_false : ¬ C128_statement := by
  intro h
  have := (h [.check 0, .check 1, .install 0, .install 1]).1
  rw [C128_twice] at this
  omega

end Verif.Props
