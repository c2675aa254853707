import Verif.Model.WaitReply
/-!
# C20: a thread waiting for a reply gets its reply

Specification: the log of a history records the messages sent (with the thread waiting for the reply, if
any), where each reply goes, and what the waiting threads get.
-/
namespace Verif.Props
open Verif.Model

/-- Messages sent, in order, each with the thread that waits for its reply. -/
def sentLog (log : List WaitEvent) : List (Int × Option Nat) :=
  log.filterMap fun | .sent m w => some (m, w) | _ => none

/-- No message with a waiting thread was answered with ANS and NUL frames. -/
def OneToOne (log : List WaitEvent) : Prop :=
  ∀ t m d, WaitEvent.replied t m d ∈ log → t = .ans ∨ t = .nul → ∀ w, WaitEvent.sent m (some w) ∉ log

/-- C20 in full: the reply (RPY or ERR) to a message somebody waits for goes to that thread, any other reply goes to the
handler. `ops` is any history of the channel, then a reply comes. -/
def C20_statement : Prop := ∀ (lim : Int) (fail : Bool) (ops : List WaitOp) (t : FType) (m : Int) (d : ReplyDest),
  (sentLog ((WaitChan.init lim fail).run ops).1).length ≤ 2 ^ 31 →
  t = .rpy ∨ t = .err →
  (((WaitChan.init lim fail).run ops).2.step (.reply t m)).1 = [.replied t m d] → d ≠ .refused →
  (∀ w, WaitEvent.sent m (some w) ∈ ((WaitChan.init lim fail).run ops).1 → d = .waiter w) ∧
  ((∀ w, WaitEvent.sent m (some w) ∉ ((WaitChan.init lim fail).run ops).1) → d = .handler)

/-- Two threads wait; the first message is answered with ANS and NUL. The reply to the second goes to the handler and
its thread gets nothing. -/
theorem C20_ans_blocks :
    ((WaitChan.init 0 false).run [.send true, .send true, .reply .ans 0, .reply .nul 0, .reply .rpy 1]).1 =
    [.sent 0 (some 0), .sent 1 (some 1), .replied .ans 0 .handler, .replied .nul 0 .handler,
     .replied .rpy 1 .handler] := by decide +kernel

theorem C20_statement_false : ¬ C20_statement := by
  intro h
  have := (h 0 false [.send true, .send true, .reply .ans 0, .reply .nul 0] .rpy 1 .handler (by decide +kernel)
    (.inl rfl) (by decide +kernel) (by decide)).1 1 (by decide +kernel)
  exact absurd this (by decide)

structure aux_wr_BInv (log : List WaitEvent) (c : WaitChan) : Prop where
  fixed : c.out.lastFixedMore = -1
  next : c.out.nextProposed = (sentLog log).length - 1
  nums : (sentLog log).map (·.1) = (List.range (sentLog log).length).map Int.ofNat
  split : ∃ dn ow, sentLog log = dn ++ ow ∧ c.out.outstanding = ow.map (·.1) ∧
    c.waiting = ow.filterMap (fun p => p.2.map (fun w => (p.1, w)))

theorem aux_wr_sentLog_append (a b : List WaitEvent) : sentLog (a ++ b) = sentLog a ++ sentLog b := by
  simp [sentLog]

theorem aux_wr_mem_sent {log : List WaitEvent} {m : Int} {o : Option Nat} :
    WaitEvent.sent m o ∈ log ↔ (m, o) ∈ sentLog log := by
  simp only [sentLog, List.mem_filterMap]
  constructor
  · intro h; exact ⟨_, h, rfl⟩
  · rintro ⟨e, he, h⟩
    cases e <;> simp at h
    obtain ⟨h1, h2⟩ := h
    subst h1 h2
    exact he

/-- A message number names one message. -/
theorem aux_wr_unique {log : List WaitEvent} (hn : (sentLog log).map (·.1) = (List.range (sentLog log).length).map Int.ofNat)
    {m : Int} {o o' : Option Nat} (h : (m, o) ∈ sentLog log) (h' : (m, o') ∈ sentLog log) : o = o' := by
  obtain ⟨i, hi, e⟩ := List.mem_iff_getElem.mp h
  obtain ⟨j, hj, e'⟩ := List.mem_iff_getElem.mp h'
  have f : ∀ k (hk : k < (sentLog log).length), ((sentLog log)[k]).1 = (k : Int) := by
    intro k hk
    have h1 : ((sentLog log).map (·.1))[k]? = some (((sentLog log)[k]).1) := by
      rw [List.getElem?_map, List.getElem?_eq_getElem hk]; rfl
    rw [hn, List.getElem?_map, List.getElem?_range hk] at h1
    simpa using h1.symm
  have a := f i hi
  have b := f j hj
  rw [e] at a; rw [e'] at b
  have : i = j := by simp only at a b; omega
  subst this
  rw [e] at e'
  simpa using e'

theorem aux_wr_i32_small (n : Nat) (h : n < 2 ^ 31) : i32 ((n : Int) - 1 + 1) = n := by
  have e : (n : Int) - 1 + 1 = n := by omega
  rw [e]
  unfold i32
  have : (n : Int) < 2147483648 := by
    have : (2:Nat)^31 = 2147483648 := by decide
    omega
  omega

theorem aux_wr_sendMsg {c : OutChan} {n : Nat} (hf : c.lastFixedMore = -1) (hn : c.nextProposed = (n : Int) - 1) (h : n < 2 ^ 31) :
    (∃ r, c.sendMsg false = (r, c) ∧ ∀ m, r ≠ .sent m) ∨
    c.sendMsg false = (.sent n, { c with nextProposed := n, outstanding := c.outstanding ++ [(n : Int)] }) := by
  unfold OutChan.sendMsg
  by_cases h1 : c.limit > 0 ∧ (c.outstanding.length : Int) ≥ c.limit
  · left
    rw [if_pos h1]
    refine ⟨_, rfl, fun m => ?_⟩
    split <;> simp
  · right
    rw [if_neg h1, if_neg (by rw [hf]; decide)]
    have hi : c.nextMsgNo = ((n : Int), { c with nextProposed := n }) := by
      unfold OutChan.nextMsgNo
      rw [hn, aux_wr_i32_small n h]
      have hne : ¬ (n : Int) = -1 := by omega
      simp only [if_neg hne]
    simp [hi]

theorem aux_wr_send_shape (c : OutChan) (hf : c.lastFixedMore = -1) :
    (∃ r, c.sendMsg false = (r, c) ∧ ∀ m, r ≠ .sent m) ∨ ∃ m c', c.sendMsg false = (.sent m, c') := by
  unfold OutChan.sendMsg
  by_cases h1 : c.limit > 0 ∧ (c.outstanding.length : Int) ≥ c.limit
  · left
    rw [if_pos h1]
    refine ⟨_, rfl, fun m => ?_⟩
    split <;> simp
  · right
    rw [if_neg h1, if_neg (by rw [hf]; decide)]
    exact ⟨_, _, rfl⟩

/-- Where an accepted reply goes, and what is left. -/
theorem aux_wr_dispatch {log : List WaitEvent} {c : WaitChan} (I : aux_wr_BInv log c) {m : Int} (hm : ¬ m < 0)
    (he : c.out.expectedReply = m) :
    ∃ o, (m, o) ∈ sentLog log ∧ ∃ dn rest, sentLog log = dn ++ (m, o) :: rest ∧ c.out.outstanding = m :: rest.map (·.1) ∧
      (∀ t, t = .rpy ∨ t = .err → ∀ (c1 : WaitChan), c1.waiting = c.waiting →
        (c1.dispatch t m).1 = (match o with | some w => ReplyDest.waiter w | none => .handler) ∧
        (c1.dispatch t m).2.out = c1.out ∧
        (c1.dispatch t m).2.waiting = rest.filterMap (fun p => p.2.map (fun w => (p.1, w)))) ∧
      (o = none → c.waiting = rest.filterMap (fun p => p.2.map (fun w => (p.1, w)))) := by
  obtain ⟨dn, ow, e1, e2, e3⟩ := I.split
  cases ow with
  | nil =>
    simp only [OutChan.expectedReply, e2, List.map_nil, List.headD_nil] at he
    omega
  | cons x rest =>
    obtain ⟨n, o⟩ := x
    simp only [OutChan.expectedReply, e2, List.map_cons, List.headD_cons] at he
    subst he
    have hmem : (n, o) ∈ sentLog log := by rw [e1]; simp
    refine ⟨o, hmem, dn, rest, e1, by simpa using e2, ?_, ?_⟩
    · intro t ht c1 hc1
      unfold WaitChan.dispatch
      rw [if_pos ht, hc1, e3]
      cases o with
      | some w => simp
      | none =>
        simp only [List.filterMap_cons, Option.map_none]
        have hall : ∀ p ∈ rest.filterMap (fun p : Int × Option Nat => p.2.map (fun w => (p.1, w))), p.1 ≠ n := by
          intro p hp hpn
          obtain ⟨q, hq, hq2⟩ := List.mem_filterMap.mp hp
          obtain ⟨a, b⟩ := q
          cases b with
          | none => simp at hq2
          | some w =>
            simp only [Option.map_some, Option.some.injEq] at hq2
            subst hq2
            simp only at hpn
            subst hpn
            have := aux_wr_unique I.nums hmem (o' := some w) (by rw [e1]; simp [hq])
            simp at this
        cases hw : rest.filterMap (fun p : Int × Option Nat => p.2.map (fun w => (p.1, w))) with
        | nil => simp [hc1, e3, hw]
        | cons p ps =>
          have := hall p (by simp [hw])
          obtain ⟨a, b⟩ := p
          simp only at this
          simp [Ne.symm this, hc1, e3, hw]
    · intro h
      subst h
      simpa using e3

theorem aux_wr_bstep {log : List WaitEvent} {c : WaitChan} (I : aux_wr_BInv log c) (op : WaitOp)
    (hp : OneToOne (log ++ (c.step op).1)) (hl : (sentLog (log ++ (c.step op).1)).length ≤ 2 ^ 31) :
    aux_wr_BInv (log ++ (c.step op).1) (c.step op).2 := by
  have same : ∀ c' : WaitChan, c'.out = c.out → c'.waiting = c.waiting → ∀ es, sentLog es = [] →
      aux_wr_BInv (log ++ es) c' := by
    intro c' h1 h2 es h3
    have e : sentLog (log ++ es) = sentLog log := by rw [aux_wr_sentLog_append, h3, List.append_nil]
    refine ⟨?_, ?_, ?_, ?_⟩
    · rw [h1]; exact I.fixed
    · rw [h1, e]; exact I.next
    · rw [e]; exact I.nums
    · rw [h1, h2, e]; exact I.split
  cases op with
  | send wait =>
    simp only [WaitChan.step] at hp hl ⊢
    by_cases hb : c.broken
    · rw [if_pos hb]; exact same c rfl rfl [] (by rfl)
    · rw [if_neg hb] at hp hl ⊢
      rcases aux_wr_send_shape c.out I.fixed with ⟨r, h, hr⟩ | ⟨m, c', h⟩
      · rw [h]
        cases r with
        | sent m => exact absurd rfl (hr m)
        | refused => exact same c rfl rfl [] (by rfl)
        | blocked => exact same c rfl rfl [] (by rfl)
      · have hfull : (sentLog log).length < 2 ^ 31 := by
          rw [h] at hl
          have e : ∀ x w, (sentLog (log ++ [WaitEvent.sent x w])).length = (sentLog log).length + 1 := by
            intro x w; rw [aux_wr_sentLog_append, List.length_append]; rfl
          cases wait
          · have := e m none
            simp only [Bool.false_eq_true, if_false] at hl
            omega
          · have := e m (some c.created)
            simp only [if_true] at hl
            omega
        rcases aux_wr_sendMsg I.fixed I.next hfull with ⟨r, h', hr⟩ | h'
        · rw [h] at h'
          exact absurd (congrArg Prod.fst h').symm (hr m)
        · rw [h']
          obtain ⟨dn, ow, e1, e2, e3⟩ := I.split
          have key : ∀ (o : Option Nat) (c' : WaitChan),
              c'.out = { c.out with nextProposed := ((sentLog log).length : Int), outstanding := c.out.outstanding ++ [((sentLog log).length : Int)] } →
              c'.waiting = c.waiting ++ (o.map (fun w => (((sentLog log).length : Int), w))).toList →
              aux_wr_BInv (log ++ [.sent (sentLog log).length o]) c' := by
            intro o c' h1 h2
            have e : sentLog (log ++ [.sent (sentLog log).length o]) = sentLog log ++ [(((sentLog log).length : Int), o)] := by
              rw [aux_wr_sentLog_append]; rfl
            refine ⟨?_, ?_, ?_, dn, ow ++ [(((sentLog log).length : Int), o)], ?_, ?_, ?_⟩
            · rw [h1]; exact I.fixed
            · rw [h1, e]; simp
            · rw [e, List.length_append, List.map_append, I.nums, List.length_singleton, List.range_succ]; simp
            · rw [e, ← List.append_assoc, ← e1]
            · rw [h1]; simp [e2]
            · rw [h2, e3]; cases o <;> simp
          cases wait
          · exact key none _ rfl (by simp)
          · exact key (some c.created) _ rfl (by simp)
  | reply t m =>
    simp only [WaitChan.step] at hp hl ⊢
    by_cases hb : c.broken ∨ t.isReply = false ∨ m < 0
    · rw [if_pos hb]; exact same c rfl rfl [] (by rfl)
    · rw [if_neg hb] at hp hl ⊢
      by_cases he : c.out.expectedReply = m
      · rw [if_pos he] at hp hl ⊢
        have hm : ¬ m < 0 := fun h => hb (.inr (.inr h))
        obtain ⟨o, hmem, dn, rest, e1, e2, hd, hnone⟩ := aux_wr_dispatch I hm he
        have hrem : (c.out.removeFirst m).2 = { c.out with outstanding := rest.map (·.1) } := by
          unfold OutChan.removeFirst
          rw [if_pos (by rw [e2]; rfl), e2]; rfl
        -- the reply is over
        have key : ∀ (d : ReplyDest) (c' : WaitChan), c'.out = { c.out with outstanding := rest.map (·.1) } →
            c'.waiting = rest.filterMap (fun p => p.2.map (fun w => (p.1, w))) →
            aux_wr_BInv (log ++ [.replied t m d]) c' := by
          intro d c' h1 h2
          have e : sentLog (log ++ [.replied t m d]) = sentLog log := by
            rw [aux_wr_sentLog_append]; exact List.append_nil _
          refine ⟨?_, ?_, ?_, dn ++ [(m, o)], rest, ?_, ?_, h2⟩
          · rw [h1]; exact I.fixed
          · rw [h1, e]; exact I.next
          · rw [e]; exact I.nums
          · rw [e, e1]; simp
          · rw [h1]
        cases t with
        | msg => simp [FType.isReply] at hb
        | seq => simp [FType.isReply] at hb
        | rpy =>
          simp only [FType.lastReply, if_true, hrem]
          obtain ⟨_, h2, h3⟩ := hd .rpy (.inl rfl) { c with out := { c.out with outstanding := rest.map (·.1) } } rfl
          exact key _ _ h2 h3
        | err =>
          simp only [FType.lastReply, if_true, hrem]
          obtain ⟨_, h2, h3⟩ := hd .err (.inr rfl) { c with out := { c.out with outstanding := rest.map (·.1) } } rfl
          exact key _ _ h2 h3
        | ans => refine same _ ?_ ?_ _ ?_ <;> rfl
        | nul =>
          simp only [FType.lastReply, if_true, hrem] at hp ⊢
          have ho : o = none := by
            cases o with
            | none => rfl
            | some w =>
              exfalso
              exact hp .nul m _ (List.mem_append_right _ (List.mem_singleton.mpr rfl)) (.inr rfl) w
                (List.mem_append_left _ (aux_wr_mem_sent.mpr hmem))
          exact key _ _ rfl (hnone ho)
      · rw [if_neg he]; refine same _ ?_ ?_ _ ?_ <;> rfl
  | wait w =>
    simp only [WaitChan.step]
    split
    · split
      · refine same _ ?_ ?_ _ ?_ <;> rfl
      · refine same _ ?_ ?_ _ ?_ <;> rfl
    · refine same _ ?_ ?_ _ ?_ <;> rfl
  | install w => simp only [WaitChan.step]; split <;> refine same _ ?_ ?_ _ ?_ <;> rfl
  | pop w =>
    simp only [WaitChan.step]
    split
    · split <;> refine same _ ?_ ?_ _ ?_ <;> rfl
    · refine same _ ?_ ?_ _ ?_ <;> rfl
  | timeout w => simp only [WaitChan.step]; split <;> refine same _ ?_ ?_ _ ?_ <;> rfl
  | uninstall w =>
    simp only [WaitChan.step]
    split
    · split
      · refine same _ ?_ ?_ _ ?_ <;> rfl
      · split <;> refine same _ ?_ ?_ _ ?_ <;> rfl
    · refine same _ ?_ ?_ _ ?_ <;> rfl
  | drain w =>
    simp only [WaitChan.step]
    split
    · split <;> refine same _ ?_ ?_ _ ?_ <;> rfl
    · refine same _ ?_ ?_ _ ?_ <;> rfl
  | breaks => refine same _ ?_ ?_ _ ?_ <;> rfl
  | notify w => simp only [WaitChan.step]; split <;> refine same _ ?_ ?_ _ ?_ <;> rfl

theorem aux_wr_one_left {a b : List WaitEvent} (h : OneToOne (a ++ b)) : OneToOne a :=
  fun t m d hm ht w hw => h t m d (List.mem_append_left _ hm) ht w (List.mem_append_left _ hw)

theorem aux_wr_brun (ops : List WaitOp) : ∀ (log : List WaitEvent) (c : WaitChan), aux_wr_BInv log c →
    OneToOne (log ++ (c.run ops).1) → (sentLog (log ++ (c.run ops).1)).length ≤ 2 ^ 31 →
    aux_wr_BInv (log ++ (c.run ops).1) (c.run ops).2 := by
  induction ops with
  | nil => intro log c I _ _; simpa [WaitChan.run] using I
  | cons op ops ih =>
    intro log c I hp hl
    simp only [WaitChan.run, ← List.append_assoc] at hp hl ⊢
    refine ih _ _ (aux_wr_bstep I op (aux_wr_one_left hp) ?_) hp hl
    rw [aux_wr_sentLog_append, List.length_append] at hl
    omega

theorem aux_wr_binit (lim : Int) (fail : Bool) : aux_wr_BInv [] (WaitChan.init lim fail) :=
  ⟨rfl, rfl, rfl, [], [], rfl, rfl, rfl⟩

/-- C20, the part that holds. Missing: the histories in which a message somebody waits for is answered with ANS and NUL
frames (`C20_ans_blocks`). -/
theorem C20_to_its_waiter_partial (lim : Int) (fail : Bool) (ops : List WaitOp) (t : FType) (m : Int) (d : ReplyDest)
    (hlen : (sentLog ((WaitChan.init lim fail).run ops).1).length ≤ 2 ^ 31)
    (hone : OneToOne ((WaitChan.init lim fail).run ops).1)
    (ht : t = .rpy ∨ t = .err)
    (hd : (((WaitChan.init lim fail).run ops).2.step (.reply t m)).1 = [.replied t m d]) (hr : d ≠ .refused) :
    (∀ w, WaitEvent.sent m (some w) ∈ ((WaitChan.init lim fail).run ops).1 → d = .waiter w) ∧
    ((∀ w, WaitEvent.sent m (some w) ∉ ((WaitChan.init lim fail).run ops).1) → d = .handler) := by
  have I := aux_wr_brun ops [] _ (aux_wr_binit lim fail) (by simpa using hone) (by simpa using hlen)
  rw [List.nil_append] at I
  generalize ((WaitChan.init lim fail).run ops).1 = log at *
  generalize ((WaitChan.init lim fail).run ops).2 = c at *
  simp only [WaitChan.step] at hd
  by_cases hb : c.broken ∨ t.isReply = false ∨ m < 0
  · rw [if_pos hb] at hd; simp at hd
  · rw [if_neg hb] at hd
    by_cases he : c.out.expectedReply = m
    · rw [if_pos he] at hd
      obtain ⟨o, hmem, dn, rest, e1, e2, hdis, _⟩ := aux_wr_dispatch I (fun h => hb (.inr (.inr h))) he
      have hl : t.lastReply = true := by rcases ht with h | h <;> rw [h] <;> rfl
      rw [hl, if_pos rfl] at hd
      have h1 := (hdis t ht { c with out := (c.out.removeFirst m).2 } rfl).1
      simp only [List.cons.injEq, WaitEvent.replied.injEq, true_and, and_true] at hd
      rw [h1] at hd
      constructor
      · intro w hw
        have := aux_wr_unique I.nums hmem (aux_wr_mem_sent.mp hw)
        rw [← hd, this]
      · intro hn
        cases o with
        | none => exact hd.symm
        | some w => exact absurd (aux_wr_mem_sent.mpr hmem) (hn w)
    · rw [if_neg he] at hd
      simp only [List.cons.injEq, WaitEvent.replied.injEq, true_and, and_true] at hd
      exact absurd hd.symm hr

/-- Two waiting threads and a message nobody waits for in between. -/
example : ((WaitChan.init 0 false).run [.send true, .send false, .send true, .reply .rpy 0, .reply .err 1,
    .reply .rpy 2]).1 = [.sent 0 (some 0), .sent 1 none, .sent 2 (some 1), .replied .rpy 0 (.waiter 0),
    .replied .err 1 .handler, .replied .rpy 2 (.waiter 1)] := by decide +kernel

/-! ## What the waiting thread gets -/

/-- Replies given to `w`. -/
def given (w : Nat) (log : List WaitEvent) : List WaitEvent :=
  log.filter fun | .replied _ _ (.waiter v) => v == w | _ => false

structure aux_wr_GInv (log : List WaitEvent) (c : WaitChan) : Prop where
  sentW : ∀ m w, (m, w) ∈ c.waiting → WaitEvent.sent m (some w) ∈ log
  bound : ∀ m w, WaitEvent.sent m (some w) ∈ log → w < c.created
  uniq : ∀ m m' w, WaitEvent.sent m (some w) ∈ log → WaitEvent.sent m' (some w) ∈ log → m = m'
  nodup : (c.waiting.map (·.2)).Nodup
  got : ∀ t m w, WaitEvent.replied t m (.waiter w) ∈ log → WaitEvent.sent m (some w) ∈ log
  box : ∀ m w, .frame m ∈ c.box w → ∃ t, WaitEvent.replied t m (.waiter w) ∈ log
  phase : ∀ m w, c.phase w = .popped (some (.frame m)) ∨ c.phase w = .draining (some (.frame m)) →
    ∃ t, WaitEvent.replied t m (.waiter w) ∈ log
  count : ∀ w, (given w log).length ≤ 1
  fresh : ∀ w, w ∈ c.waiting.map (·.2) ∨ c.created ≤ w → given w log = []

theorem aux_wr_given_append (w : Nat) (a b : List WaitEvent) : given w (a ++ b) = given w a ++ given w b := by
  simp [given]

/-- Steps that send nothing and give no reply to a thread. -/
theorem aux_wr_gquiet {log : List WaitEvent} {c c' : WaitChan} (I : aux_wr_GInv log c) (es : List WaitEvent)
    (he : ∀ e ∈ es, (∀ m w, e ≠ .sent m (some w)) ∧ ∀ t m w, e ≠ .replied t m (.waiter w))
    (h1 : c'.waiting = c.waiting) (h2 : c'.created = c.created)
    (h3 : ∀ m w, .frame m ∈ c'.box w → .frame m ∈ c.box w)
    (h4 : ∀ m w, c'.phase w = .popped (some (.frame m)) ∨ c'.phase w = .draining (some (.frame m)) →
      (c.phase w = .popped (some (.frame m)) ∨ c.phase w = .draining (some (.frame m))) ∨ .frame m ∈ c.box w) :
    aux_wr_GInv (log ++ es) c' := by
  have hs : ∀ m w, WaitEvent.sent m (some w) ∈ log ++ es ↔ WaitEvent.sent m (some w) ∈ log := by
    intro m w
    rw [List.mem_append]
    exact ⟨fun h => h.elim id (fun h => absurd rfl ((he _ h).1 m w)), .inl⟩
  have hr : ∀ t m w, WaitEvent.replied t m (.waiter w) ∈ log ++ es ↔ WaitEvent.replied t m (.waiter w) ∈ log := by
    intro t m w
    rw [List.mem_append]
    exact ⟨fun h => h.elim id (fun h => absurd rfl ((he _ h).2 t m w)), .inl⟩
  have hg : ∀ w, given w (log ++ es) = given w log := by
    intro w
    rw [aux_wr_given_append]
    have : given w es = [] := by
      unfold given
      rw [List.filter_eq_nil_iff]
      intro e hm
      have := (he e hm).2
      split
      · rename_i t m v
        exact absurd rfl (this t m v)
      · simp
    rw [this, List.append_nil]
  constructor
  · intro m w h; rw [hs]; exact I.sentW m w (h1 ▸ h)
  · intro m w h; rw [h2]; exact I.bound m w ((hs m w).mp h)
  · intro m m' w h h'; exact I.uniq m m' w ((hs _ _).mp h) ((hs _ _).mp h')
  · rw [h1]; exact I.nodup
  · intro t m w h; rw [hs]; exact I.got t m w ((hr _ _ _).mp h)
  · intro m w h
    obtain ⟨t, ht⟩ := I.box m w (h3 m w h)
    exact ⟨t, (hr _ _ _).mpr ht⟩
  · intro m w h
    rcases h4 m w h with h | h
    · obtain ⟨t, ht⟩ := I.phase m w h
      exact ⟨t, (hr _ _ _).mpr ht⟩
    · obtain ⟨t, ht⟩ := I.box m w h
      exact ⟨t, (hr _ _ _).mpr ht⟩
  · intro w; rw [hg]; exact I.count w
  · intro w h; rw [hg]; rw [h1, h2] at h; exact I.fresh w h

theorem aux_wr_putAt_same {α : Type} (f : Nat → α) (w : Nat) (v : α) : putAt f w v w = v := by simp [putAt]
theorem aux_wr_putAt_ne {α : Type} (f : Nat → α) {w x : Nat} (v : α) (h : x ≠ w) : putAt f w v x = f x := by
  simp [putAt, h]

theorem aux_wr_gphase {c : WaitChan} {v : Nat} {p : WaitPhase} (hp : ∀ m, p ≠ .popped (some (.frame m)) ∧ p ≠ .draining (some (.frame m))) :
    ∀ m w, putAt c.phase v p w = .popped (some (.frame m)) ∨ putAt c.phase v p w = .draining (some (.frame m)) →
      (c.phase w = .popped (some (.frame m)) ∨ c.phase w = .draining (some (.frame m))) ∨ .frame m ∈ c.box w := by
  intro m w h
  by_cases hw : w = v
  · subst hw
    rw [aux_wr_putAt_same] at h
    exact absurd h (by rintro (h | h); exact (hp m).1 h; exact (hp m).2 h)
  · rw [aux_wr_putAt_ne _ _ hw] at h
    exact .inl h

theorem aux_wr_gtail {c : WaitChan} {v : Nat} {rest : List BoxItem} (hr : ∀ x ∈ rest, x ∈ c.box v) :
    ∀ m w, BoxItem.frame m ∈ putAt c.box v rest w → .frame m ∈ c.box w := by
  intro m w h
  by_cases hw : w = v
  · subst hw
    rw [aux_wr_putAt_same] at h
    exact hr _ h
  · rw [aux_wr_putAt_ne _ _ hw] at h
    exact h

theorem aux_wr_gsend {log : List WaitEvent} {c c' : WaitChan} (I : aux_wr_GInv log c) (m0 : Int)
    (h1 : c'.waiting = c.waiting ++ [(m0, c.created)]) (h2 : c'.created = c.created + 1) (h3 : c'.box = c.box)
    (h4 : c'.phase = c.phase) : aux_wr_GInv (log ++ [.sent m0 (some c.created)]) c' := by
  have hs : ∀ m w, WaitEvent.sent m (some w) ∈ log ++ [.sent m0 (some c.created)] ↔
      WaitEvent.sent m (some w) ∈ log ∨ (m = m0 ∧ w = c.created) := by
    intro m w; simp
  have hr : ∀ t m w, WaitEvent.replied t m (.waiter w) ∈ log ++ [.sent m0 (some c.created)] ↔
      WaitEvent.replied t m (.waiter w) ∈ log := by
    intro t m w; simp
  have hg : ∀ w, given w (log ++ [.sent m0 (some c.created)]) = given w log := by
    intro w; rw [aux_wr_given_append]; exact List.append_nil _
  constructor
  · intro m w h
    rw [h1] at h
    rw [hs]
    rcases List.mem_append.mp h with h | h
    · exact .inl (I.sentW m w h)
    · simp at h; exact .inr h
  · intro m w h
    rw [h2]
    rcases (hs m w).mp h with h | h
    · have := I.bound m w h; omega
    · omega
  · intro m m' w h h'
    rcases (hs m w).mp h with h | h <;> rcases (hs m' w).mp h' with h' | h'
    · exact I.uniq m m' w h h'
    · have := I.bound m w h; omega
    · have := I.bound m' w h'; omega
    · rw [h.1, h'.1]
  · rw [h1, List.map_append, List.nodup_append]
    refine ⟨I.nodup, by simp, ?_⟩
    intro a ha b hb
    simp at hb
    obtain ⟨p, hp, e⟩ := List.mem_map.mp ha
    have := I.bound p.1 p.2 (I.sentW p.1 p.2 hp)
    omega
  · intro t m w h
    rw [hs]; exact .inl (I.got t m w ((hr _ _ _).mp h))
  · intro m w h
    rw [h3] at h
    obtain ⟨t, ht⟩ := I.box m w h
    exact ⟨t, (hr _ _ _).mpr ht⟩
  · intro m w h
    rw [h4] at h
    obtain ⟨t, ht⟩ := I.phase m w h
    exact ⟨t, (hr _ _ _).mpr ht⟩
  · intro w; rw [hg]; exact I.count w
  · intro w h
    rw [hg]
    rw [h1, h2] at h
    rcases h with h | h
    · rw [List.map_append, List.mem_append] at h
      rcases h with h | h
      · exact I.fresh w (.inl h)
      · simp at h; exact I.fresh w (.inr (by omega))
    · exact I.fresh w (.inr (by omega))

theorem aux_wr_greply {log : List WaitEvent} {c c' : WaitChan} (I : aux_wr_GInv log c) (t : FType) (m0 : Int) (w0 : Nat)
    (rest : List (Int × Nat)) (h0 : c.waiting = (m0, w0) :: rest) (h1 : c'.waiting = rest) (h2 : c'.created = c.created)
    (h3 : c'.box = putAt c.box w0 (c.box w0 ++ [.frame m0])) (h4 : c'.phase = c.phase) :
    aux_wr_GInv (log ++ [.replied t m0 (.waiter w0)]) c' := by
  have hs : ∀ m w, WaitEvent.sent m (some w) ∈ log ++ [.replied t m0 (.waiter w0)] ↔ WaitEvent.sent m (some w) ∈ log := by
    intro m w; simp
  have hr : ∀ t' m w, WaitEvent.replied t' m (.waiter w) ∈ log ++ [.replied t m0 (.waiter w0)] ↔
      WaitEvent.replied t' m (.waiter w) ∈ log ∨ (t' = t ∧ m = m0 ∧ w = w0) := by
    intro t m w; simp
  have hnd := I.nodup
  rw [h0, List.map_cons, List.nodup_cons] at hnd
  have hg0 : given w0 (log ++ [.replied t m0 (.waiter w0)]) = [.replied t m0 (.waiter w0)] := by
    rw [aux_wr_given_append, I.fresh w0 (.inl (by rw [h0]; simp))]
    simp [given]
  have hg : ∀ w, w ≠ w0 → given w (log ++ [.replied t m0 (.waiter w0)]) = given w log := by
    intro w hw
    rw [aux_wr_given_append]
    have : given w [WaitEvent.replied t m0 (.waiter w0)] = [] := by
      simp [given, Ne.symm hw]
    rw [this, List.append_nil]
  have hsent := I.sentW m0 w0 (by rw [h0]; simp)
  constructor
  · intro m w h; rw [hs]; exact I.sentW m w (by rw [h0, ← h1]; exact List.mem_cons_of_mem _ h)
  · intro m w h; rw [h2]; exact I.bound m w ((hs m w).mp h)
  · intro m m' w h h'; exact I.uniq m m' w ((hs _ _).mp h) ((hs _ _).mp h')
  · rw [h1]; exact hnd.2
  · intro t' m w h
    rw [hs]
    rcases (hr _ _ _).mp h with h | ⟨_, hm, hw⟩
    · exact I.got t' m w h
    · rw [hm, hw]; exact hsent
  · intro m w h
    rw [h3] at h
    by_cases hw : w = w0
    · subst hw
      rw [aux_wr_putAt_same, List.mem_append] at h
      rcases h with h | h
      · obtain ⟨t', ht⟩ := I.box m w h
        exact ⟨t', (hr _ _ _).mpr (.inl ht)⟩
      · simp at h
        exact ⟨t, (hr _ _ _).mpr (.inr ⟨rfl, h, rfl⟩)⟩
    · rw [aux_wr_putAt_ne _ _ hw] at h
      obtain ⟨t', ht⟩ := I.box m w h
      exact ⟨t', (hr _ _ _).mpr (.inl ht)⟩
  · intro m w h
    rw [h4] at h
    obtain ⟨t', ht⟩ := I.phase m w h
    exact ⟨t', (hr _ _ _).mpr (.inl ht)⟩
  · intro w
    by_cases hw : w = w0
    · subst hw; rw [hg0]; simp
    · rw [hg w hw]; exact I.count w
  · intro w h
    rw [h1, h2] at h
    have hne : w ≠ w0 := by
      rintro rfl
      rcases h with h | h
      · exact hnd.1 h
      · have := I.bound m0 w hsent; omega
    rw [hg w hne]
    refine I.fresh w ?_
    rcases h with h | h
    · left; rw [h0, List.map_cons]; exact List.mem_cons_of_mem _ h
    · exact .inr h

theorem aux_wr_gstep {log : List WaitEvent} {c : WaitChan} (I : aux_wr_GInv log c) (op : WaitOp) :
    aux_wr_GInv (log ++ (c.step op).1) (c.step op).2 := by
  have stay : aux_wr_GInv (log ++ []) c := by rw [List.append_nil]; exact I
  cases op with
  | send wait =>
    simp only [WaitChan.step]
    by_cases hb : c.broken
    · rw [if_pos hb]; exact stay
    · rw [if_neg hb]
      rcases hsm : c.out.sendMsg false with ⟨r, out⟩
      cases r with
      | refused => exact stay
      | blocked => exact stay
      | sent m =>
        cases wait
        · refine aux_wr_gquiet I _ ?_ rfl rfl (fun m w h => h) (fun m w h => .inl h)
          simp
        · refine aux_wr_gsend I m ?_ ?_ ?_ ?_ <;> rfl
  | reply t m =>
    simp only [WaitChan.step]
    by_cases hb : c.broken ∨ t.isReply = false ∨ m < 0
    · rw [if_pos hb]; exact stay
    · rw [if_neg hb]
      by_cases he : c.out.expectedReply = m
      · rw [if_pos he]
        have key : ∀ c1 : WaitChan, c1.waiting = c.waiting → c1.created = c.created → c1.box = c.box →
            c1.phase = c.phase → aux_wr_GInv (log ++ [.replied t m (c1.dispatch t m).1]) (c1.dispatch t m).2 := by
          intro c1 k1 k2 k3 k4
          have hand : aux_wr_GInv (log ++ [.replied t m .handler]) c1 := by
            refine aux_wr_gquiet I _ (by simp) k1 k2 (fun m w h => k3 ▸ h) (fun m w h => .inl (k4 ▸ h))
          unfold WaitChan.dispatch
          by_cases ht : t = .rpy ∨ t = .err
          · rw [if_pos ht]
            cases hw : c1.waiting with
            | nil => exact hand
            | cons x rest =>
              obtain ⟨n, w⟩ := x
              by_cases hmn : m = n
              · simp only [if_pos hmn]
                subst hmn
                refine aux_wr_greply I t m w rest (by rw [← k1, hw]) rfl k2 ?_ k4
                show putAt c1.box w (c1.box w ++ [.frame m]) = _
                rw [k3]
              · simp only [if_neg hmn]; exact hand
          · rw [if_neg ht]; exact hand
        split
        · exact key { c with out := (c.out.removeFirst m).2 } rfl rfl rfl rfl
        · exact key c rfl rfl rfl rfl
      · rw [if_neg he]
        exact aux_wr_gquiet I _ (by simp) rfl rfl (fun m w h => h) (fun m w h => .inl h)
  | wait w =>
    simp only [WaitChan.step]
    split
    · split
      · exact aux_wr_gquiet I _ (by simp) rfl rfl (fun m w h => h) (aux_wr_gphase (by simp))
      · exact aux_wr_gquiet I _ (by simp) rfl rfl (fun m w h => h) (aux_wr_gphase (by simp))
    · exact stay
  | install w =>
    simp only [WaitChan.step]
    split
    · exact aux_wr_gquiet I _ (by simp) rfl rfl (fun m w h => h) (aux_wr_gphase (by simp))
    · exact stay
  | pop w =>
    simp only [WaitChan.step]
    split
    · cases hb : c.box w with
      | nil => exact stay
      | cons i rest =>
        refine aux_wr_gquiet I _ (by simp) rfl rfl (aux_wr_gtail (by rw [hb]; exact fun x hx => List.mem_cons_of_mem _ hx)) ?_
        intro m v h
        by_cases hv : v = w
        · subst hv
          simp only [aux_wr_putAt_same] at h
          right
          rw [hb]
          rcases h with h | h
          · simp at h; rw [h]; exact List.mem_cons_self
          · simp at h
        · simp only [aux_wr_putAt_ne _ _ hv] at h
          exact .inl h
    · exact stay
  | timeout w =>
    simp only [WaitChan.step]
    split
    · exact aux_wr_gquiet I _ (by simp) rfl rfl (fun m w h => h) (aux_wr_gphase (by simp))
    · exact stay
  | uninstall w =>
    simp only [WaitChan.step]
    split
    · rename_i r hr
      split
      · exact aux_wr_gquiet I _ (by simp) rfl rfl (fun m w h => h) (aux_wr_gphase (by simp))
      · split
        · exact aux_wr_gquiet I _ (by simp) rfl rfl (fun m w h => h) (aux_wr_gphase (by simp))
        · refine aux_wr_gquiet I _ (by simp) rfl rfl (fun m w h => h) ?_
          intro m v h
          by_cases hv : v = w
          · subst hv
            simp only [aux_wr_putAt_same] at h
            rcases h with h | h
            · simp at h
            · simp at h; left; left; rw [hr, h]
          · simp only [aux_wr_putAt_ne _ _ hv] at h
            exact .inl h
    · exact stay
  | drain w =>
    simp only [WaitChan.step]
    split
    · cases hb : c.box w with
      | nil => exact stay
      | cons i rest =>
        exact aux_wr_gquiet I _ (by simp) rfl rfl (aux_wr_gtail (by rw [hb]; exact fun x hx => List.mem_cons_of_mem _ hx))
          (aux_wr_gphase (by simp))
    · exact stay
  | breaks => exact aux_wr_gquiet I _ (by simp [WaitChan.step]) rfl rfl (fun m w h => h) (fun m w h => .inl h)
  | notify w =>
    simp only [WaitChan.step]
    split
    · refine aux_wr_gquiet I _ (by simp) rfl rfl ?_ (fun m w h => .inl h)
      intro m v h
      by_cases hv : v = w
      · subst hv
        simp only [aux_wr_putAt_same, List.mem_append, List.mem_singleton] at h
        rcases h with h | h
        · exact h
        · simp at h
      · simp only [aux_wr_putAt_ne _ _ hv] at h
        exact h
    · exact stay

theorem aux_wr_grun (ops : List WaitOp) : ∀ (log : List WaitEvent) (c : WaitChan), aux_wr_GInv log c →
    aux_wr_GInv (log ++ (c.run ops).1) (c.run ops).2 := by
  induction ops with
  | nil => intro log c I; simpa [WaitChan.run] using I
  | cons op ops ih =>
    intro log c I
    simp only [WaitChan.run, ← List.append_assoc]
    exact ih _ _ (aux_wr_gstep I op)

theorem aux_wr_ghist (lim : Int) (fail : Bool) (ops : List WaitOp) :
    aux_wr_GInv ((WaitChan.init lim fail).run ops).1 ((WaitChan.init lim fail).run ops).2 := by
  have h0 : aux_wr_GInv [] (WaitChan.init lim fail) := by
    constructor <;> simp [WaitChan.init, given]
  simpa using aux_wr_grun ops [] _ h0

/-- C20. Whatever happens (time outs, a connection broken at any point, any schedule), a frame a waiting thread gets is
the reply to its own message. -/
theorem C20_own_reply (lim : Int) (fail : Bool) (ops : List WaitOp) (op : WaitOp) (w : Nat) (m : Int)
    (h : WaitEvent.returned w (some m) ∈ (((WaitChan.init lim fail).run ops).2.step op).1) :
    WaitEvent.sent m (some w) ∈ ((WaitChan.init lim fail).run ops).1 ∧
    (∀ m', WaitEvent.sent m' (some w) ∈ ((WaitChan.init lim fail).run ops).1 → m' = m) ∧
    ∃ t, WaitEvent.replied t m (.waiter w) ∈ ((WaitChan.init lim fail).run ops).1 := by
  have I := aux_wr_ghist lim fail ops
  generalize ((WaitChan.init lim fail).run ops).1 = log at *
  generalize ((WaitChan.init lim fail).run ops).2 = c at *
  have key : ∀ r, c.phase w = .popped r ∨ c.phase w = .draining r → BoxItem.result r = some m →
      ∃ t, WaitEvent.replied t m (.waiter w) ∈ log := by
    intro r hp hr
    have : r = some (.frame m) := by
      cases r with
      | none => simp [BoxItem.result] at hr
      | some i => cases i <;> simp [BoxItem.result] at hr; rw [hr]
    subst this
    exact I.phase m w hp
  have fin : ∃ t, WaitEvent.replied t m (.waiter w) ∈ log := by
    cases op with
    | uninstall v =>
      simp only [WaitChan.step] at h
      split at h
      · rename_i r hr
        split at h
        · simp at h
          obtain ⟨hw, hm⟩ := h
          subst hw
          exact key r (.inl hr) hm.symm
        · split at h <;> simp at h
      · simp at h
    | drain v =>
      simp only [WaitChan.step] at h
      split at h
      · rename_i r hr
        split at h
        · simp at h
        · simp at h
          obtain ⟨hw, hm⟩ := h
          subst hw
          exact key r (.inr hr) hm.symm
      · simp at h
    | send wait =>
      simp only [WaitChan.step] at h
      split at h
      · simp at h
      · split at h
        · split at h <;> simp at h
        · simp at h
    | reply t n =>
      simp only [WaitChan.step] at h
      split at h
      · simp at h
      · split at h <;> simp at h
    | wait v =>
      simp only [WaitChan.step] at h
      split at h
      · split at h <;> simp at h
      · simp at h
    | install v => simp only [WaitChan.step] at h; split at h <;> simp at h
    | pop v =>
      simp only [WaitChan.step] at h
      split at h
      · split at h <;> simp at h
      · simp at h
    | timeout v => simp only [WaitChan.step] at h; split at h <;> simp at h
    | breaks => simp [WaitChan.step] at h
    | notify v => simp only [WaitChan.step] at h; split at h <;> simp at h
  obtain ⟨t, ht⟩ := fin
  have hs := I.got t m w ht
  exact ⟨hs, fun m' h' => I.uniq m' m w h' hs, t, ht⟩

example : ((WaitChan.init 0 false).run [.send true, .wait 0, .install 0, .reply .rpy 0, .pop 0, .uninstall 0]).1 =
  [.sent 0 (some 0), .replied .rpy 0 (.waiter 0), .returned 0 (some 0)] := by decide +kernel

/-- C20. No thread is given two replies. -/
theorem C20_at_most_one (lim : Int) (fail : Bool) (ops : List WaitOp) (w : Nat) :
    (given w ((WaitChan.init lim fail).run ops).1).length ≤ 1 := (aux_wr_ghist lim fail ops).count w

/-! ## The connection breaks -/

structure aux_wr_HInv (c : WaitChan) : Prop where
  blocked : ∀ w, c.phase w = .blocked → w ∈ c.handlers ∨ w ∈ c.firing ∨ BoxItem.gone ∈ c.box w
  popped : ∀ w r, c.phase w = .popped r → w ∈ c.handlers ∨ w ∈ c.firing ∨ BoxItem.gone ∈ c.box w ∨ r = some .gone
  drain : ∀ w r, c.phase w = .draining r → w ∈ c.firing ∨ BoxItem.gone ∈ c.box w

theorem aux_wr_dispatch_keeps (c : WaitChan) (t : FType) (m : Int) : (c.dispatch t m).2.phase = c.phase ∧
    (c.dispatch t m).2.handlers = c.handlers ∧ (c.dispatch t m).2.firing = c.firing ∧
    ∀ w, BoxItem.gone ∈ c.box w → BoxItem.gone ∈ (c.dispatch t m).2.box w := by
  unfold WaitChan.dispatch
  split
  · split
    · exact ⟨rfl, rfl, rfl, fun w h => h⟩
    · rename_i v rest hw
      split
      · refine ⟨rfl, rfl, rfl, fun w h => ?_⟩
        by_cases e : w = v
        · subst e; simp only [aux_wr_putAt_same]; exact List.mem_append_left _ h
        · simp only [aux_wr_putAt_ne _ _ e]; exact h
      · exact ⟨rfl, rfl, rfl, fun w h => h⟩
  · exact ⟨rfl, rfl, rfl, fun w h => h⟩

theorem aux_wr_hsame {c c' : WaitChan} (I : aux_wr_HInv c) (h1 : c'.phase = c.phase)
    (h2 : ∀ w, w ∈ c.handlers → w ∈ c'.handlers ∨ w ∈ c'.firing)
    (h3 : ∀ w, w ∈ c.firing → w ∈ c'.firing ∨ BoxItem.gone ∈ c'.box w)
    (h4 : ∀ w, BoxItem.gone ∈ c.box w → BoxItem.gone ∈ c'.box w) : aux_wr_HInv c' := by
  constructor
  · intro w h
    rw [h1] at h
    rcases I.blocked w h with h | h | h
    · exact (h2 w h).elim .inl (fun h => .inr (.inl h))
    · exact .inr (h3 w h)
    · exact .inr (.inr (h4 w h))
  · intro w r h
    rw [h1] at h
    rcases I.popped w r h with h | h | h | h
    · exact (h2 w h).elim .inl (fun h => .inr (.inl h))
    · exact (h3 w h).elim (fun h => .inr (.inl h)) (fun h => .inr (.inr (.inl h)))
    · exact .inr (.inr (.inl (h4 w h)))
    · exact .inr (.inr (.inr h))
  · intro w r h
    rw [h1] at h
    rcases I.drain w r h with h | h
    · exact h3 w h
    · exact .inr (h4 w h)

/-- A step of one waiting thread. -/
theorem aux_wr_hone {c c' : WaitChan} (I : aux_wr_HInv c) (v : Nat) (p : WaitPhase) (h1 : c'.phase = putAt c.phase v p)
    (h2 : ∀ w, w ≠ v → (w ∈ c.handlers → w ∈ c'.handlers) ∧ (w ∈ c.firing → w ∈ c'.firing) ∧ c'.box w = c.box w)
    (h3 : p = .blocked → v ∈ c'.handlers)
    (h4 : ∀ r, p = .popped r → v ∈ c'.handlers ∨ v ∈ c'.firing ∨ BoxItem.gone ∈ c'.box v ∨ r = some .gone)
    (h5 : ∀ r, p = .draining r → v ∈ c'.firing ∨ BoxItem.gone ∈ c'.box v) : aux_wr_HInv c' := by
  constructor
  · intro w h
    rw [h1] at h
    by_cases e : w = v
    · subst e; rw [aux_wr_putAt_same] at h; exact .inl (h3 h)
    · rw [aux_wr_putAt_ne _ _ e] at h
      obtain ⟨a, b, d⟩ := h2 w e
      rw [d]
      rcases I.blocked w h with h | h | h
      · exact .inl (a h)
      · exact .inr (.inl (b h))
      · exact .inr (.inr h)
  · intro w r h
    rw [h1] at h
    by_cases e : w = v
    · subst e; rw [aux_wr_putAt_same] at h; exact h4 r h
    · rw [aux_wr_putAt_ne _ _ e] at h
      obtain ⟨a, b, d⟩ := h2 w e
      rw [d]
      rcases I.popped w r h with h | h | h | h
      · exact .inl (a h)
      · exact .inr (.inl (b h))
      · exact .inr (.inr (.inl h))
      · exact .inr (.inr (.inr h))
  · intro w r h
    rw [h1] at h
    by_cases e : w = v
    · subst e; rw [aux_wr_putAt_same] at h; exact h5 r h
    · rw [aux_wr_putAt_ne _ _ e] at h
      obtain ⟨a, b, d⟩ := h2 w e
      rw [d]
      rcases I.drain w r h with h | h
      · exact .inl (b h)
      · exact .inr h

theorem aux_wr_hstep {c : WaitChan} (I : aux_wr_HInv c) (op : WaitOp) : aux_wr_HInv (c.step op).2 := by
  cases op with
  | send wait =>
    simp only [WaitChan.step]
    split
    · exact I
    · split
      · split <;> exact ⟨I.blocked, I.popped, I.drain⟩
      · exact I
  | reply t m =>
    simp only [WaitChan.step]
    split
    · exact I
    · split
      · split
        · obtain ⟨a, b, d, e⟩ := aux_wr_dispatch_keeps { c with out := (c.out.removeFirst m).2 } t m
          exact aux_wr_hsame I a (fun w h => .inl ((congrArg (w ∈ ·) b).mpr h)) (fun w h => .inl ((congrArg (w ∈ ·) d).mpr h)) e
        · obtain ⟨a, b, d, e⟩ := aux_wr_dispatch_keeps c t m
          exact aux_wr_hsame I a (fun w h => .inl ((congrArg (w ∈ ·) b).mpr h)) (fun w h => .inl ((congrArg (w ∈ ·) d).mpr h)) e
      · exact aux_wr_hsame I rfl (fun w h => .inr (List.mem_append_right _ h)) (fun w h => .inl (List.mem_append_left _ h))
          (fun w h => h)
  | wait v =>
    simp only [WaitChan.step]
    split
    · split
      · exact aux_wr_hone I v .returned rfl (fun w _ => ⟨id, id, rfl⟩) (by simp) (by simp) (by simp)
      · exact aux_wr_hone I v .checked rfl (fun w _ => ⟨id, id, rfl⟩) (by simp) (by simp) (by simp)
    · exact I
  | install v =>
    simp only [WaitChan.step]
    split
    · exact aux_wr_hone I v .blocked rfl (fun w _ => ⟨List.mem_cons_of_mem _, id, rfl⟩) (by simp) (by simp) (by simp)
    · exact I
  | pop v =>
    simp only [WaitChan.step]
    split
    · rename_i hv
      cases hb : c.box v with
      | nil => exact I
      | cons i rest =>
        refine aux_wr_hone I v (.popped (some i)) rfl (fun w hw => ⟨id, id, aux_wr_putAt_ne _ _ hw⟩) (by simp) ?_ (by simp)
        intro r hr
        simp at hr
        subst hr
        simp only [aux_wr_putAt_same]
        rcases I.blocked v hv with h | h | h
        · exact .inl h
        · exact .inr (.inl h)
        · rw [hb] at h
          rcases List.mem_cons.mp h with h | h
          · exact .inr (.inr (.inr (by rw [h])))
          · exact .inr (.inr (.inl h))
    · exact I
  | timeout v =>
    simp only [WaitChan.step]
    split
    · rename_i hv
      refine aux_wr_hone I v (.popped none) rfl (fun w _ => ⟨id, id, rfl⟩) (by simp) ?_ (by simp)
      intro r _
      rcases I.blocked v hv with h | h | h
      · exact .inl h
      · exact .inr (.inl h)
      · exact .inr (.inr (.inl h))
    · exact I
  | uninstall v =>
    simp only [WaitChan.step]
    split
    · rename_i r hr
      split
      · refine aux_wr_hone I v .returned rfl (fun w hw => ⟨fun h => ?_, id, rfl⟩) (by simp) (by simp) (by simp)
        exact List.mem_filter.mpr ⟨h, by simpa using hw⟩
      · rename_i hn
        split
        · exact aux_wr_hone I v .returned rfl (fun w _ => ⟨id, id, rfl⟩) (by simp) (by simp) (by simp)
        · rename_i hg
          refine aux_wr_hone I v (.draining r) rfl (fun w _ => ⟨id, id, rfl⟩) (by simp) (by simp) ?_
          intro r' _
          rcases I.popped v r hr with h | h | h | h
          · exact absurd h hn
          · exact .inl h
          · exact .inr h
          · exact absurd h hg
    · exact I
  | drain v =>
    simp only [WaitChan.step]
    split
    · cases hb : c.box v with
      | nil => exact I
      | cons i rest =>
        exact aux_wr_hone I v .returned rfl (fun w hw => ⟨id, id, aux_wr_putAt_ne _ _ hw⟩) (by simp) (by simp) (by simp)
    · exact I
  | breaks =>
    exact aux_wr_hsame I rfl (fun w h => .inr (List.mem_append_right _ h)) (fun w h => .inl (List.mem_append_left _ h))
      (fun w h => h)
  | notify v =>
    simp only [WaitChan.step]
    split
    · refine aux_wr_hsame I rfl (fun w h => .inl h) (fun w h => ?_) (fun w h => ?_)
      · by_cases e : w = v
        · subst e; simp [aux_wr_putAt_same]
        · left; exact List.mem_filter.mpr ⟨h, by simpa using e⟩
      · by_cases e : w = v
        · subst e; simp [aux_wr_putAt_same]
        · simp only [aux_wr_putAt_ne _ _ e]; exact h
    · exact I

theorem aux_wr_hrun (ops : List WaitOp) : ∀ (c : WaitChan), aux_wr_HInv c → aux_wr_HInv (c.run ops).2 := by
  induction ops with
  | nil => intro c I; exact I
  | cons op ops ih => intro c I; exact ih _ (aux_wr_hstep I op)

theorem aux_wr_hhist (lim : Int) (fail : Bool) (ops : List WaitOp) : aux_wr_HInv ((WaitChan.init lim fail).run ops).2 :=
  aux_wr_hrun ops _ (by constructor <;> simp [WaitChan.init])

/-- C20. The second, unlimited wait of `vortex_channel_wait_reply` always ends: something is queued, or the close handler
that queues something is about to run. -/
theorem C20_second_wait_ends (lim : Int) (fail : Bool) (ops : List WaitOp) (w : Nat) (r : Option BoxItem)
    (h : ((WaitChan.init lim fail).run ops).2.phase w = .draining r) :
    w ∈ ((WaitChan.init lim fail).run ops).2.firing ∨ ((WaitChan.init lim fail).run ops).2.box w ≠ [] := by
  rcases (aux_wr_hhist lim fail ops).drain w r h with h | h
  · exact .inl h
  · exact .inr (List.ne_nil_of_mem h)

example : let c := ((WaitChan.init 0 false).run [.send true, .wait 0, .install 0, .reply .rpy 0, .breaks, .pop 0,
    .uninstall 0]).2
    c.phase 0 = .draining (some (.frame 0)) ∧ 0 ∈ c.firing := by decide +kernel

/-- `w` went to sleep before the connection broke and nothing was lost since. -/
structure aux_wr_Woken (w : Nat) (c : WaitChan) : Prop where
  started : c.phase w ≠ .idle ∧ c.phase w ≠ .checked
  gone : w ∉ c.handlers
  blocked : c.phase w = .blocked → w ∈ c.firing ∨ BoxItem.gone ∈ c.box w

theorem aux_wr_woken_one {w : Nat} {c c' : WaitChan} (J : aux_wr_Woken w c) (v : Nat) (p : WaitPhase)
    (h1 : c'.phase = putAt c.phase v p) (hf : v = w → p ≠ .idle ∧ p ≠ .checked ∧ p ≠ .blocked)
    (h2 : w ∉ c'.handlers) (h3 : v ≠ w → c'.firing = c.firing ∧ c'.box w = c.box w) : aux_wr_Woken w c' := by
  by_cases e : v = w
  · subst e
    obtain ⟨a, b, d⟩ := hf rfl
    refine ⟨?_, h2, ?_⟩
    · rw [h1, aux_wr_putAt_same]; exact ⟨a, b⟩
    · rw [h1, aux_wr_putAt_same]; exact fun h => absurd h d
  · have e' : w ≠ v := fun h => e h.symm
    obtain ⟨a, b⟩ := h3 e
    refine ⟨?_, h2, ?_⟩
    · rw [h1, aux_wr_putAt_ne _ _ e']; exact J.started
    · rw [h1, aux_wr_putAt_ne _ _ e', a, b]; exact J.blocked

theorem aux_wr_woken_step {w : Nat} {c : WaitChan} (J : aux_wr_Woken w c) (op : WaitOp) : aux_wr_Woken w (c.step op).2 := by
  cases op with
  | send wait =>
    simp only [WaitChan.step]
    split
    · exact J
    · split
      · split <;> exact ⟨J.started, J.gone, J.blocked⟩
      · exact J
  | reply t m =>
    have key : ∀ c1 : WaitChan, c1.phase = c.phase → c1.handlers = c.handlers → c1.firing = c.firing → c1.box = c.box →
        aux_wr_Woken w (c1.dispatch t m).2 := by
      intro c1 k1 k2 k3 k4
      obtain ⟨a, b, d, e⟩ := aux_wr_dispatch_keeps c1 t m
      refine ⟨by rw [a, k1]; exact J.started, by rw [b, k2]; exact J.gone, ?_⟩
      rw [a, k1, d, k3]
      intro h
      rcases J.blocked h with h | h
      · exact .inl h
      · exact .inr (e w (by rw [k4]; exact h))
    simp only [WaitChan.step]
    split
    · exact J
    · split
      · split
        · exact key { c with out := (c.out.removeFirst m).2 } rfl rfl rfl rfl
        · exact key c rfl rfl rfl rfl
      · refine ⟨J.started, by simp, fun h => ?_⟩
        rcases J.blocked h with h | h
        · exact .inl (List.mem_append_left _ h)
        · exact .inr h
  | wait v =>
    simp only [WaitChan.step]
    split
    · rename_i hv
      have hne : v ≠ w := by rintro rfl; exact J.started.1 hv.1
      split
      · exact aux_wr_woken_one J v .returned rfl (fun e => absurd e hne) J.gone (fun _ => ⟨rfl, rfl⟩)
      · exact aux_wr_woken_one J v .checked rfl (fun e => absurd e hne) J.gone (fun _ => ⟨rfl, rfl⟩)
    · exact J
  | install v =>
    simp only [WaitChan.step]
    split
    · rename_i hv
      have hne : v ≠ w := by rintro rfl; exact J.started.2 hv
      refine aux_wr_woken_one J v .blocked rfl (fun e => absurd e hne) ?_ (fun _ => ⟨rfl, rfl⟩)
      simp only [List.mem_cons]
      rintro (h | h)
      · exact hne h.symm
      · exact J.gone h
    · exact J
  | pop v =>
    simp only [WaitChan.step]
    split
    · cases hb : c.box v with
      | nil => exact J
      | cons i rest =>
        exact aux_wr_woken_one J v (.popped (some i)) rfl (fun _ => by simp) J.gone
          (fun e => ⟨rfl, aux_wr_putAt_ne _ _ (fun h => e h.symm)⟩)
    · exact J
  | timeout v =>
    simp only [WaitChan.step]
    split
    · exact aux_wr_woken_one J v (.popped none) rfl (fun _ => by simp) J.gone (fun e => ⟨rfl, rfl⟩)
    · exact J
  | uninstall v =>
    simp only [WaitChan.step]
    split
    · rename_i r hr
      split
      · exact aux_wr_woken_one J v .returned rfl (fun _ => by simp) (fun h => J.gone (List.mem_filter.mp h).1) (fun e => ⟨rfl, rfl⟩)
      · split
        · exact aux_wr_woken_one J v .returned rfl (fun _ => by simp) J.gone (fun e => ⟨rfl, rfl⟩)
        · exact aux_wr_woken_one J v (.draining r) rfl (fun _ => by simp) J.gone (fun e => ⟨rfl, rfl⟩)
    · exact J
  | drain v =>
    simp only [WaitChan.step]
    split
    · cases hb : c.box v with
      | nil => exact J
      | cons i rest =>
        exact aux_wr_woken_one J v .returned rfl (fun _ => by simp) J.gone
          (fun e => ⟨rfl, aux_wr_putAt_ne _ _ (fun h => e h.symm)⟩)
    · exact J
  | breaks =>
    refine ⟨J.started, by simp [WaitChan.step], fun h => ?_⟩
    rcases J.blocked h with h | h
    · exact .inl (List.mem_append_left _ h)
    · exact .inr h
  | notify v =>
    simp only [WaitChan.step]
    split
    · refine ⟨J.started, J.gone, fun h => ?_⟩
      by_cases e : w = v
      · subst e; simp [aux_wr_putAt_same]
      · simp only [aux_wr_putAt_ne _ _ e]
        rcases J.blocked h with h | h
        · left; exact List.mem_filter.mpr ⟨h, by simpa using e⟩
        · exact .inr h
    · exact J

theorem aux_wr_woken_run {w : Nat} (ops : List WaitOp) : ∀ c : WaitChan, aux_wr_Woken w c → aux_wr_Woken w (c.run ops).2 := by
  induction ops with
  | nil => intro c J; exact J
  | cons op ops ih => intro c J; exact ih _ (aux_wr_woken_step J op)

/-- A thread waiting in `vortex_channel_wait_reply` when the connection breaks is woken up: for the rest of the
history, as long as it has not woken up there is something in its queue or the close handler that puts it there has
still to run. -/
theorem C20_woken_when_broken (lim : Int) (fail : Bool) (ops after : List WaitOp) (w : Nat)
    (hw : ((WaitChan.init lim fail).run ops).2.phase w = .blocked)
    (hb : ((((WaitChan.init lim fail).run ops).2.step .breaks).2.run after).2.phase w = .blocked) :
    w ∈ ((((WaitChan.init lim fail).run ops).2.step .breaks).2.run after).2.firing ∨
    ((((WaitChan.init lim fail).run ops).2.step .breaks).2.run after).2.box w ≠ [] := by
  have H := aux_wr_hhist lim fail ops
  have J : aux_wr_Woken w (((WaitChan.init lim fail).run ops).2.step .breaks).2 := by
    refine ⟨?_, by simp [WaitChan.step], fun _ => ?_⟩
    · show ((WaitChan.init lim fail).run ops).2.phase w ≠ _ ∧ ((WaitChan.init lim fail).run ops).2.phase w ≠ _
      rw [hw]; simp
    · rcases H.blocked w hw with h | h | h
      · exact .inl (List.mem_append_right _ h)
      · exact .inl (List.mem_append_left _ h)
      · exact .inr h
  rcases (aux_wr_woken_run after _ J).blocked hb with h | h
  · exact .inl h
  · exact .inr (List.ne_nil_of_mem h)

example : let c := ((WaitChan.init 0 false).run [.send true, .wait 0, .install 0, .breaks, .notify 0]).2
    c.phase 0 = .blocked ∧ c.box 0 = [.gone] := by decide +kernel

/-- A thread that finds the connection ok just before it breaks installs its close handler too late: nothing will wake
it up but its time out. -/
theorem C20_installed_too_late :
    let c := ((WaitChan.init 0 false).run [.send true, .wait 0, .breaks, .install 0]).2
    c.broken = true ∧ c.phase 0 = .blocked ∧ c.firing = [] ∧ c.box 0 = [] := by decide +kernel

theorem aux_wr_stays_broken (ops : List WaitOp) : ∀ c : WaitChan, c.broken = true → (c.run ops).2.broken = true := by
  induction ops with
  | nil => intro c h; exact h
  | cons op ops ih =>
    intro c h
    apply ih
    cases op <;> simp only [WaitChan.step]
    case send => rw [if_pos h]; exact h
    case reply => rw [if_pos (.inl h)]; exact h
    all_goals repeat' split
    all_goals first | exact h | rfl

/-- A thread that calls `vortex_channel_wait_reply` after the connection broke does not wait: it gets nothing at
once. -/
theorem C20_returns_when_broken (lim : Int) (fail : Bool) (ops after : List WaitOp) (w : Nat)
    (hw : ((((WaitChan.init lim fail).run ops).2.step .breaks).2.run after).2.phase w = .idle)
    (hc : w < ((((WaitChan.init lim fail).run ops).2.step .breaks).2.run after).2.created) :
    (((((WaitChan.init lim fail).run ops).2.step .breaks).2.run after).2.step (.wait w)).1 = [.returned w none] := by
  have hb := aux_wr_stays_broken after (((WaitChan.init lim fail).run ops).2.step .breaks).2 rfl
  generalize ((((WaitChan.init lim fail).run ops).2.step .breaks).2.run after).2 = c at *
  simp only [WaitChan.step]
  rw [if_pos ⟨hw, hc⟩, if_pos hb]

example : let c := ((((WaitChan.init 0 false).run [.send true, .send true, .wait 0, .install 0]).2.step .breaks).2.run
    [.notify 0, .pop 0]).2
    c.phase 1 = .idle ∧ 1 < c.created := by decide +kernel

end Verif.Props
