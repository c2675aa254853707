import Verif.Spec.LinkMany
import Verif.Proof.LinkRun
/-! Two endpoints with several channels: the invariant. -/
namespace Verif.Proof
open Verif.Model Verif.Spec

/-- The frames of channel `c`. -/
def mkOf (c : Nat) (fs : List Frame) : List Frame := fs.filter (fun f => decide (f.channel = c))

theorem mk_of_append (c : Nat) (fs gs : List Frame) : mkOf c (fs ++ gs) = mkOf c fs ++ mkOf c gs := List.filter_append ..

theorem mk_of_own {c : Nat} {fs : List Frame} (h : ∀ f ∈ fs, f.channel = c) : mkOf c fs = fs :=
  List.filter_eq_self.mpr (fun f hf => by simp [h f hf])

theorem mk_of_other {c d : Nat} {fs : List Frame} (h : ∀ f ∈ fs, f.channel = c) (hd : d ≠ c) : mkOf d fs = [] :=
  List.filter_eq_nil_iff.mpr (fun f hf => by simp [h f hf]; omega)

/-- The buffer of the sequencer does not matter, if it is large enough. -/
theorem LinkInv.setBuf {ch l na nb fs gs opsA opsB NA NB} (h : LinkInv ch l na nb fs gs opsA opsB NA NB) (b : Nat)
    (hb : initialBufferSize ≤ b) : LinkInv ch { l with a := { l.a with buf := b } } na nb fs gs opsA opsB NA NB := by
  obtain ⟨rest, acc, sA⟩ := h.sideA
  obtain ⟨rest2, acc2, sB⟩ := h.sideB
  exact ⟨⟨h.selfA.shut, h.selfA.flag, h.selfA.l1, h.selfA.l2, hb, h.selfA.win⟩, h.selfB, h.rdA, h.rdB, h.chF, h.chG,
    h.flowA.congr rfl rfl rfl rfl, h.flowB.congr rfl rfl rfl rfl,
    ⟨rest, acc, sA.split, sA.carries, sA.frags, sA.fits, sA.order, sA.pending, sA.answered, sA.fragment, sA.outstanding, sA.repliesLe,
      sA.proposed, sA.fixed, sA.limit, sA.small, sA.whole⟩,
    ⟨rest2, acc2, sB.split, sB.carries, sB.frags, sB.fits, sB.order, sB.pending, sB.answered, sB.fragment, sB.outstanding, sB.repliesLe,
      sB.proposed, sB.fixed, sB.limit, sB.small, sB.whole⟩⟩

/-- Channel `c` alone: the octets of its own frames only, read frame by frame. -/
def Alone (m : ManyLink) (c : Nat) (FS GS : List Frame) (opsA opsB : Nat → List PeersOp) (NA NB : Nat → Nat) : Prop :=
  ∃ ab ba, LinkInv c ⟨m.a.chans c, m.b.chans c, ab, ba⟩ 0 0 (mkOf c FS) (mkOf c GS) (opsA c) (opsB c) (NA c) (NB c) ∧
    (m.a.chans c).rd = .init ∧ (m.b.chans c).rd = .init

structure ManyInv (chs : List Nat) (m : ManyLink) (na nb : Nat) (FS GS : List Frame) (opsA opsB : Nat → List PeersOp)
    (NA NB : Nat → Nat) : Prop where
  upA : m.a.down = false
  upB : m.b.down = false
  bufA : initialBufferSize ≤ m.a.buf
  bufB : initialBufferSize ≤ m.b.buf
  rdA : Progress na m.a.rd m.ba GS
  rdB : Progress nb m.b.rd m.ab FS
  chF : ∀ f ∈ FS, ∃ c : Nat, c ∈ chs ∧ f.channel = c
  chG : ∀ f ∈ GS, ∃ c : Nat, c ∈ chs ∧ f.channel = c
  each : ∀ c ∈ chs, Alone m c FS GS opsA opsB NA NB

theorem ManyInv.swap {chs m na nb FS GS opsA opsB NA NB} (h : ManyInv chs m na nb FS GS opsA opsB NA NB) :
    ManyInv chs m.swap nb na GS FS opsB opsA NB NA :=
  ⟨h.upB, h.upA, h.bufB, h.bufA, h.rdB, h.rdA, h.chG, h.chF, fun c hc => by
    obtain ⟨ab, ba, h1, h2, h3⟩ := h.each c hc
    exact ⟨ba, ab, h1.swap, h3, h2⟩⟩

/-- One channel of `a` has changed, and `a` may have written frames of it or read one. -/
theorem mk_put {chs m na nb FS GS opsA opsB NA NB} (h : ManyInv chs m na nb FS GS opsA opsB NA NB) {c : Nat} (hc : c ∈ chs)
    {x : Endpoint} {buf : Nat} (hbuf : initialBufferSize ≤ buf) {rd : ReadState} {na' : Nat} {ba2 : List Byte} {GS' add : List Frame}
    {out : List Byte} {opsA' opsB' : Nat → List PeersOp} {ab ba : List Byte}
    (hx : LinkInv c ⟨x, m.b.chans c, ab, ba⟩ 0 0 (mkOf c (FS ++ add)) (mkOf c GS') (opsA' c) (opsB' c) (NA c) (NB c)) (hrd : x.rd = .init)
    (hadd : ∀ f ∈ add, f.channel = c) (hB : Progress nb m.b.rd (m.ab ++ out) (FS ++ add)) (hA : Progress na' rd ba2 GS')
    (hG : ∀ f ∈ GS', f ∈ GS) (hGo : ∀ d : Nat, d ≠ c → mkOf d GS' = mkOf d GS)
    (ho : ∀ d ∈ chs, d ≠ c → opsA' d = opsA d ∧ opsB' d = opsB d) :
    ManyInv chs ⟨{ m.a.put c x with rd := rd, buf := buf }, m.b, m.ab ++ out, ba2⟩ na' nb (FS ++ add) GS' opsA' opsB' NA NB := by
  refine ⟨?_, h.upB, hbuf, h.bufB, hA, hB, ?_, fun f hf => h.chG f (hG f hf), ?_⟩
  · show (m.a.down || x.chan.shut) = false
    rw [h.upA, hx.selfA.shut]; rfl
  · intro f hf
    rcases List.mem_append.mp hf with hf | hf
    · exact h.chF f hf
    · exact ⟨c, hc, hadd f hf⟩
  · intro d hd
    by_cases hdc : d = c
    · subst hdc
      obtain ⟨_, _, _, _, h3⟩ := h.each d hd
      refine ⟨ab, ba, ?_, ?_, h3⟩
      · show LinkInv d ⟨(if d = d then x else m.a.chans d), m.b.chans d, ab, ba⟩ 0 0 _ _ _ _ _ _
        rw [if_pos rfl]; exact hx
      · show (if d = d then x else m.a.chans d).rd = .init
        rw [if_pos rfl]; exact hrd
    · obtain ⟨ab2, ba', h1, h2, h3⟩ := h.each d hd
      refine ⟨ab2, ba', ?_, ?_, h3⟩
      · show LinkInv d ⟨(if d = c then x else m.a.chans d), m.b.chans d, ab2, ba'⟩ 0 0 _ _ _ _ _ _
        rw [if_neg hdc, mk_of_append, mk_of_other hadd hdc, List.append_nil, hGo d hdc, (ho d hd hdc).1, (ho d hd hdc).2]
        exact h1
      · show (if d = c then x else m.a.chans d).rd = .init
        rw [if_neg hdc]; exact h2

/-! ### Steps of one side -/

def mkFits : ManyOp → Prop
  | .send _ c | .reply _ _ c => c ≠ [] ∧ c.length < 2147483647
  | .setWindow _ n => n < 2147483640
  | _ => True

def mkSends (c : Nat) : ManyOp → Nat
  | .send d _ => if d = c then 1 else 0
  | _ => 0

def mkQueued (c : Nat) : ManyOp → List PeersOp
  | .send d x | .reply d _ x => if d = c then [.queue ⟨.msg, 0, 0, 0, false, x⟩] else []
  | _ => []

def mkWindows (c : Nat) : ManyOp → List PeersOp
  | .setWindow d n => if d = c then [.setWindow n] else []
  | _ => []

/-- The number of interruptions after a step. -/
def mkCount (n : Nat) (l : ManyLink) : ManyOp → Nat
  | .read k => interruptions n l.a.rd (l.ba.take k)
  | _ => n

/-- Octets queued for channel `c`. -/
def mkPend (m : ManyLink) (c : Nat) : Int :=
  ((m.a.chans c).snd.pending.map (·.messageSize)).sum + ((m.b.chans c).snd.pending.map (·.messageSize)).sum

/-- What decreases with each step of the library. -/
def mkMeasure (chs : List Nat) (m : ManyLink) (FS GS : List Frame) : Int :=
  10000 * (chs.map (mkPend m)).sum + 100 * ((lkData FS).length + (lkData GS).length) + (m.ab.length + m.ba.length)

theorem mk_measure_swap (chs) (m : ManyLink) (FS GS) : mkMeasure chs m.swap GS FS = mkMeasure chs m FS GS := by
  have : mkPend m.swap = mkPend m := by
    funext c; unfold mkPend ManyLink.swap; dsimp only; omega
  unfold mkMeasure
  rw [this]
  show 10000 * _ + 100 * _ + ((m.ba.length : Int) + m.ab.length) = _
  omega

theorem mk_sum_nonneg (f : Nat → Int) : ∀ (chs : List Nat), (∀ c ∈ chs, 0 ≤ f c) → 0 ≤ (chs.map f).sum
  | [], _ => by simp
  | c :: chs, h => by
    have h1 := h c List.mem_cons_self
    have h2 := mk_sum_nonneg f chs (fun d hd => h d (List.mem_cons_of_mem _ hd))
    simp only [List.map_cons, List.sum_cons]; omega

theorem mk_sum_le (f g : Nat → Int) : ∀ (chs : List Nat), (∀ c ∈ chs, f c ≤ g c) → (chs.map f).sum ≤ (chs.map g).sum
  | [], _ => by simp
  | c :: chs, h => by
    have h1 := h c List.mem_cons_self
    have h2 := mk_sum_le f g chs (fun d hd => h d (List.mem_cons_of_mem _ hd))
    simp only [List.map_cons, List.sum_cons]; omega

theorem mk_sum_less (f g : Nat → Int) (k : Int) (c : Nat) : ∀ (chs : List Nat), c ∈ chs → (∀ d ∈ chs, f d ≤ g d) → f c + k ≤ g c →
    (chs.map f).sum + k ≤ (chs.map g).sum
  | d :: chs, hc, h, hk => by
    have h1 := h d List.mem_cons_self
    have h2 := mk_sum_le f g chs (fun d hd => h d (List.mem_cons_of_mem _ hd))
    simp only [List.map_cons, List.sum_cons]
    rcases List.mem_cons.mp hc with e | hc
    · subst e; omega
    · have := mk_sum_less f g k c chs hc (fun d hd => h d (List.mem_cons_of_mem _ hd)) hk
      omega

theorem mk_measure_nonneg {chs m na nb FS GS opsA opsB NA NB} (h : ManyInv chs m na nb FS GS opsA opsB NA NB) :
    0 ≤ mkMeasure chs m FS GS := by
  have := mk_sum_nonneg (mkPend m) chs (fun c hc => by
    obtain ⟨ab, ba, h1, _, _⟩ := h.each c hc
    obtain ⟨_, _, _, _, _, _, f1, _⟩ := h1.flowA
    obtain ⟨_, _, _, _, _, _, f2, _⟩ := h1.flowB
    have a1 := pending_sum_nonneg _ (fun q hq => (f1.pend q hq).2.2)
    have a2 := pending_sum_nonneg _ (fun q hq => (f2.pend q hq).2.2)
    unfold mkPend
    exact Int.add_nonneg a1 a2)
  unfold mkMeasure
  omega

/-- Nothing changes for the other channels. -/
theorem mk_put_other (e : ManyEnd) (c d : Nat) (x : Endpoint) (h : d ≠ c) : (e.put c x).chans d = e.chans d := by
  show (if d = c then x else e.chans d) = _
  rw [if_neg h]

theorem mk_put_self (e : ManyEnd) (c : Nat) (x : Endpoint) : (e.put c x).chans c = x := by
  show (if c = c then x else e.chans c) = _
  rw [if_pos rfl]

theorem mk_send_rd (ch : Int) (e : Endpoint) (c : List Byte) : (e.send ch c).rd = e.rd := by
  unfold Endpoint.send; split <;> rfl

theorem mk_reply_rd (ch : Int) (e : Endpoint) (err : Bool) (c : List Byte) : (e.reply ch err c).rd = e.rd := by
  unfold Endpoint.reply; split <;> rfl

theorem mk_round_rd (e : Endpoint) : e.round.1.rd = e.rd := by
  unfold Endpoint.round
  split
  · rfl
  · rfl
  · split <;> rfl

/-- The reader of `a` is told that there is something to read. -/
theorem mk_read {chs : List Nat} (hchs : ∀ c ∈ chs, c < 2147483648) {m na nb FS GS opsA opsB NA NB} {k : Nat}
    (h : ManyInv chs m na nb FS GS opsA opsB NA NB) (hk : m.ba.take k ≠ [])
    (hn : interruptions na m.a.rd (m.ba.take k) ≤ 25)
    (hack : ∀ c ∈ chs, (∀ n ∈ ((m.stepA chs (.read k)).a.chans c).acks, n < 4294967294) ∨ NB c < 4294967294) :
    ∃ FS' GS', ManyInv chs (m.stepA chs (.read k)) (interruptions na m.a.rd (m.ba.take k)) nb FS' GS' opsA opsB NA NB ∧
      (∀ c, ((m.stepA chs (.read k)).a.chans c).sent = (m.a.chans c).sent) ∧
      (∀ c, ((m.stepA chs (.read k)).a.chans c).snd.pending = (m.a.chans c).snd.pending) ∧
      (m.stepA chs (.read k)).ba.length < m.ba.length ∧
      mkMeasure chs (m.stepA chs (.read k)) FS' GS' < mkMeasure chs m FS GS := by
  have hba : m.ba ≠ [] := by intro e; rw [e] at hk; simp at hk
  have hsplit : m.ba.take k ++ m.ba.drop k = m.ba := List.take_append_drop k m.ba
  have hstep : m.stepA chs (.read k) = ⟨(m.a.read chs (m.ba.take k)).1, m.b, m.ab ++ (m.a.read chs (m.ba.take k)).2.1,
      (m.a.read chs (m.ba.take k)).2.2 ++ m.ba.drop k⟩ := by
    unfold ManyLink.stepA; rw [if_neg (by simp [h.upA])]; simp only [if_neg hk]
  have hlen : m.ba.length = (m.ba.take k).length + (m.ba.drop k).length := by rw [← List.length_append, hsplit]
  have hgs := h.rdA.nonempty hba
  cases hg : GS with
  | nil => exact absurd hg hgs
  | cons g GS' =>
  subst hg
  have hrd := h.rdA
  rw [← hsplit] at hrd
  obtain ⟨c, hc, hgc⟩ := h.chG g List.mem_cons_self
  have hgn : g.channel.toNat = c := by rw [hgc]; rfl
  obtain ⟨ab, ba, h1, h2, h3⟩ := h.each c hc
  have hof : mkOf c (g :: GS') = g :: mkOf c GS' := by simp [mkOf, hgc]
  rw [hof] at h1
  obtain ⟨st', r, hr, hx⟩ := lk_getNext (m.a.env chs) hrd hk (by simp [ManyEnd.env, hgc, hc])
    (by
      intro ht
      obtain ⟨S, E, C, c0, total, last, f1, f2, fN⟩ := h1.flowB
      obtain ⟨w, seq, e1, e2, _⟩ := lk_peers_receive f1 (f := g) (fs := lkData (mkOf c GS')) (by simp [lk_data_cons, ht])
      show ((m.a.chans g.channel.toNat).chan.win.check g.seqno g.size) = true
      rw [hgn]
      exact e2) hn
  rcases hx with ⟨hx, hp⟩ | ⟨hx, hp⟩
  · have hR : m.a.read chs (m.ba.take k) = ({ m.a.put c ((m.a.chans c).handle c g).1 with rd := st' }, ((m.a.chans c).handle c g).2, r) := by
      unfold ManyEnd.read
      simp only [hx, hgn, hgc]
      exact congrArg (fun x => (_, _, x)) (lk_bytes_back r)
    rw [hstep, hR] at hack
    rw [hstep, hR]
    -- the octets of the other frames of the channel
    obtain ⟨rest, hw⟩ : ∃ rest, wire (mkOf c GS') = some rest := by
      have := h1.rdA
      obtain ⟨_, _, rest, _, hw, _⟩ := this
      exact ⟨rest, hw⟩
    have hpc : Progress 0 .init rest (mkOf c GS') := lk_fresh _ (fun x hx => h1.rdA.legal x (List.mem_cons_of_mem _ hx)) _ hw
    have hself : ({ (⟨m.a.chans c, m.b.chans c, ab, ba⟩ : Link).a with rd := ReadState.init } : Endpoint) = m.a.chans c := by
      show ({ m.a.chans c with rd := ReadState.init } : Endpoint) = m.a.chans c
      rw [← h2]
    have hH0 := lk_handle (hchs c hc) h1 hpc (by
      rw [hself]
      have := hack c hc
      have e : ({ m.a.put c ((m.a.chans c).handle c g).1 with rd := st' } : ManyEnd).chans c = ((m.a.chans c).handle c g).1 := mk_put_self ..
      rw [e] at this
      exact this)
    rw [hself] at hH0
    obtain ⟨A, out, fs', hH, hI, q1, q2, q5, q3, q4⟩ := hH0
    rw [hH]
    have hdat : (lkData GS').length + (if g.type = .seq then 0 else 1) = (lkData (g :: GS')).length := by
      rw [lk_data_cons, List.length_append]
      by_cases ht : g.type = .seq
      · simp [ht]
      · simp [ht]; omega
    have hsum : (mkPend ⟨{ m.a.put c A with rd := st' }, m.b, m.ab ++ out, r ++ m.ba.drop k⟩) = mkPend m := by
      funext d
      unfold mkPend
      show (((m.a.put c A).chans d).snd.pending.map (·.messageSize)).sum + _ = _
      by_cases hdc : d = c
      · subst hdc; rw [mk_put_self, q2]
      · rw [mk_put_other _ _ _ _ hdc]
    have hGo : ∀ d : Nat, d ≠ c → mkOf d GS' = mkOf d (g :: GS') := by
      intro d hd
      unfold mkOf
      rw [List.filter_cons_of_neg]
      simp [hgc]; omega
    obtain ⟨add, hadd, hB, hfs, hme⟩ : ∃ add : List Frame, (∀ f ∈ add, f.channel = c) ∧ Progress nb m.b.rd (m.ab ++ out) (FS ++ add) ∧ fs' = mkOf c FS ++ add ∧
        100 * ((lkData (FS ++ add)).length + (lkData GS').length : Int) + out.length ≤ 100 * ((lkData FS).length + (lkData (g :: GS')).length) := by
      rcases q4 with ⟨rfl, rfl⟩ | ⟨ht, q, e1, e2, e3, e4, e5, e6, e7⟩
      · refine ⟨[], (by intro f hf; cases hf), ?_, (List.append_nil _).symm, ?_⟩
        · rw [List.append_nil, List.append_nil]; exact h.rdB
        · rw [List.append_nil, ← hdat]; simp only [List.length_nil]; omega
      · refine ⟨[q], (by intro f hf; rw [List.mem_singleton.mp hf]; exact e5), ?_, e1, ?_⟩
        · have := h.rdB.snoc q e2 out e3
          rw [e4, List.append_nil] at this
          exact this
        · rw [lk_data_snoc, if_pos e6, ← hdat, if_neg ht]
          simp only [List.length_append, List.length_nil]
          omega
    have hP := mk_put (opsA' := opsA) (opsB' := opsB) (add := add) (out := out) (GS' := GS') (rd := st') (buf := m.a.buf) (ba2 := r ++ m.ba.drop k)
      (na' := interruptions na m.a.rd (m.ba.take k)) (x := A) h hc h.bufA
      (by rw [mk_of_append, mk_of_own hadd, ← hfs]; exact hI) q5 hadd hB hp (fun f hf => List.mem_cons_of_mem _ hf) hGo (fun _ _ _ => ⟨rfl, rfl⟩)
    refine ⟨FS ++ add, GS', hP, ?_, ?_, ?_, ?_⟩
    · intro d
      show ((m.a.put c A).chans d).sent = _
      by_cases hdc : d = c
      · subst hdc; rw [mk_put_self]; exact q1
      · rw [mk_put_other _ _ _ _ hdc]
    · intro d
      show ((m.a.put c A).chans d).snd.pending = _
      by_cases hdc : d = c
      · subst hdc; rw [mk_put_self]; exact q2
      · rw [mk_put_other _ _ _ _ hdc]
    · simp only [List.length_append]; omega
    · unfold mkMeasure
      rw [hsum]
      simp only [List.length_append] at *
      omega
  · have hR : m.a.read chs (m.ba.take k) = ({ m.a with rd := st' }, [], r) := by
      unfold ManyEnd.read
      simp only [hx]
      exact congrArg (fun x => (_, _, x)) (lk_bytes_back r)
    rw [hstep, hR]
    refine ⟨FS, g :: GS', ⟨h.upA, h.upB, h.bufA, h.bufB, hp, ?_, h.chF, h.chG, fun d hd => h.each d hd⟩, fun _ => rfl, fun _ => rfl, ?_, ?_⟩
    · simpa using h.rdB
    · simp only [List.length_append]; omega
    · unfold mkMeasure
      have : mkPend ⟨{ m.a with rd := st' }, m.b, m.ab ++ [], r ++ m.ba.drop k⟩ = mkPend m := rfl
      rw [this]
      simp only [List.length_append, List.length_nil] at *
      omega

/-- One step of `a`. -/
theorem mk_stepA {chs : List Nat} (hchs : ∀ c ∈ chs, c < 2147483648) {m na nb FS GS opsA opsB NA NB} {op : ManyOp}
    (h : ManyInv chs m na nb FS GS (fun c => mkQueued c op ++ opsA c) (fun c => mkWindows c op ++ opsB c) NA NB) (hfit : mkFits op)
    (hs : ∀ c ∈ chs, lkMsgs (m.a.chans c).sent + mkSends c op ≤ 2147483648)
    (hr : ∀ k, op = .read k → interruptions na m.a.rd (m.ba.take k) ≤ 25 ∧
      ∀ c ∈ chs, (∀ n ∈ ((m.stepA chs op).a.chans c).acks, n < 4294967294) ∨ NB c < 4294967294) :
    ∃ FS' GS', ManyInv chs (m.stepA chs op) (mkCount na m op) nb FS' GS' opsA opsB NA NB ∧
      (∀ c ∈ chs, ((m.stepA chs op).a.chans c).sent.map lkKind = (m.a.chans c).sent.map lkKind ++ manyAsksNow m.a c op ∧
        lkMsgs ((m.stepA chs op).a.chans c).sent = lkMsgs (m.a.chans c).sent + mkSends c op) ∧
      (manyOfLibrary op = true → m.stepA chs op ≠ m → mkMeasure chs (m.stepA chs op) FS' GS' < mkMeasure chs m FS GS) := by
  have hup := h.upA
  cases op with
  | send c x =>
    have hstep : m.stepA chs (.send c x) = if c ∈ chs then { m with a := m.a.put c ((m.a.chans c).send c x) } else m := by
      unfold ManyLink.stepA; rw [if_neg (by simp [hup])]
    rw [hstep]
    by_cases hc : c ∈ chs
    · rw [if_pos hc]
      obtain ⟨ab, ba, h1, h2, h3⟩ := h.each c hc
      have hq : (fun d => mkQueued d (.send c x) ++ opsA d) c = lkQueued (.send x) ++ opsA c := by simp [mkQueued, lkQueued]
      rw [hq] at h1
      have hsc := hs c hc
      simp only [mkSends, if_true] at hsc
      obtain ⟨i1, i2⟩ := lk_send (hchs c hc) h1 hfit.1 hfit.2 hsc
      have e : Link.stepA c ⟨m.a.chans c, m.b.chans c, ab, ba⟩ (.send x) = ⟨(m.a.chans c).send c x, m.b.chans c, ab, ba⟩ := by
        have hsh : (m.a.chans c).chan.shut = false := h1.selfA.shut
        unfold Link.stepA; rw [if_neg (by simp [hsh])]
      rw [e] at i1 i2
      have hI := mk_put (opsA' := opsA) (opsB' := opsB) (add := []) (out := []) (GS' := GS) (rd := m.a.rd) (buf := m.a.buf) (ba2 := m.ba) (na' := na)
        h hc h.bufA (by rw [List.append_nil]; exact i1) (by rw [mk_send_rd]; exact h2) (by intro f hf; cases hf)
        (by rw [List.append_nil, List.append_nil]; exact h.rdB) h.rdA (fun f hf => hf) (fun d hd => rfl)
        (by intro d _ hd; simp [mkQueued, mkWindows, Ne.symm hd])
      rw [List.append_nil, List.append_nil] at hI
      refine ⟨FS, GS, hI, ?_, by intro x; cases x⟩
      intro d hd
      by_cases hdc : d = c
      · subst hdc
        rw [mk_put_self]
        rw [i2]
        constructor
        · simp [manyAsksNow, lkKind]
        · rw [lk_msgs_append, lk_msgs_one, if_pos rfl]; simp [mkSends]
      · show ((m.a.put c _).chans d).sent.map lkKind = _ ∧ lkMsgs ((m.a.put c _).chans d).sent = _
        rw [mk_put_other _ _ _ _ hdc]
        simp [manyAsksNow, mkSends, Ne.symm hdc]
    · rw [if_neg hc]
      refine ⟨FS, GS, ⟨h.upA, h.upB, h.bufA, h.bufB, h.rdA, h.rdB, h.chF, h.chG, ?_⟩, ?_, by intro x; cases x⟩
      · intro d hd
        have hdc : c ≠ d := fun e => hc (e ▸ hd)
        have := h.each d hd
        simpa [Alone, mkQueued, mkWindows, hdc] using this
      · intro d hd
        have hdc : c ≠ d := fun e => hc (e ▸ hd)
        simp [manyAsksNow, mkSends, hdc]
  | reply c err x =>
    have hstep : m.stepA chs (.reply c err x) = if c ∈ chs then { m with a := m.a.put c ((m.a.chans c).reply c err x) } else m := by
      unfold ManyLink.stepA; rw [if_neg (by simp [hup])]
    rw [hstep]
    by_cases hc : c ∈ chs
    · rw [if_pos hc]
      obtain ⟨ab, ba, h1, h2, h3⟩ := h.each c hc
      have hq : (fun d => mkQueued d (.reply c err x) ++ opsA d) c = lkQueued (.reply err x) ++ opsA c := by simp [mkQueued, lkQueued]
      rw [hq] at h1
      obtain ⟨i1, i2⟩ := lk_reply (hchs c hc) h1 hfit.1 hfit.2
      have e : Link.stepA c ⟨m.a.chans c, m.b.chans c, ab, ba⟩ (.reply err x) = ⟨(m.a.chans c).reply c err x, m.b.chans c, ab, ba⟩ := by
        have hsh : (m.a.chans c).chan.shut = false := h1.selfA.shut
        unfold Link.stepA; rw [if_neg (by simp [hsh])]
      rw [e] at i1 i2
      have hI := mk_put (opsA' := opsA) (opsB' := opsB) (add := []) (out := []) (GS' := GS) (rd := m.a.rd) (buf := m.a.buf) (ba2 := m.ba) (na' := na)
        h hc h.bufA (by rw [List.append_nil]; exact i1) (by rw [mk_reply_rd]; exact h2) (by intro f hf; cases hf)
        (by rw [List.append_nil, List.append_nil]; exact h.rdB) h.rdA (fun f hf => hf) (fun d hd => rfl)
        (by intro d _ hd; simp [mkQueued, mkWindows, Ne.symm hd])
      rw [List.append_nil, List.append_nil] at hI
      refine ⟨FS, GS, hI, ?_, by intro x; cases x⟩
      intro d hd
      by_cases hdc : d = c
      · subst hdc
        rw [mk_put_self]
        constructor
        · unfold Endpoint.reply manyAsksNow
          cases (m.a.chans d).chan.inc.pending with
          | nil => simp
          | cons m ms => simp [lkKind]
        · rcases i2 with i2 | ⟨t, k, i2, i3⟩
          · rw [i2]; rfl
          · rw [i3, lk_msgs_append, lk_msgs_one, if_neg i2]; rfl
      · show ((m.a.put c _).chans d).sent.map lkKind = _ ∧ lkMsgs ((m.a.put c _).chans d).sent = _
        rw [mk_put_other _ _ _ _ hdc]
        simp [manyAsksNow, mkSends, Ne.symm hdc]
    · rw [if_neg hc]
      refine ⟨FS, GS, ⟨h.upA, h.upB, h.bufA, h.bufB, h.rdA, h.rdB, h.chF, h.chG, ?_⟩, ?_, by intro x; cases x⟩
      · intro d hd
        have hdc : c ≠ d := fun e => hc (e ▸ hd)
        have := h.each d hd
        simpa [Alone, mkQueued, mkWindows, hdc] using this
      · intro d hd
        have hdc : c ≠ d := fun e => hc (e ▸ hd)
        simp [manyAsksNow, mkSends, hdc]
  | setWindow c n =>
    have hstep : m.stepA chs (.setWindow c n) = if c ∈ chs then
        { m with a := m.a.put c { m.a.chans c with chan := { (m.a.chans c).chan with win := (m.a.chans c).chan.win.setWindow n } } } else m := by
      unfold ManyLink.stepA; rw [if_neg (by simp [hup])]
    rw [hstep]
    by_cases hc : c ∈ chs
    · rw [if_pos hc]
      obtain ⟨ab, ba, h1, h2, h3⟩ := h.each c hc
      have hq : (fun d => mkWindows d (.setWindow c n) ++ opsB d) c = lkWindows (.setWindow n) ++ opsB c := by simp [mkWindows, lkWindows]
      have hq2 : (fun d => mkQueued d (.setWindow c n) ++ opsA d) c = opsA c := by simp [mkQueued]
      rw [hq, hq2] at h1
      have i1 := lk_setWindow (hchs c hc) h1 hfit
      have e : Link.stepA c ⟨m.a.chans c, m.b.chans c, ab, ba⟩ (.setWindow n) =
          ⟨{ m.a.chans c with chan := { (m.a.chans c).chan with win := (m.a.chans c).chan.win.setWindow n } }, m.b.chans c, ab, ba⟩ := by
        have hsh : (m.a.chans c).chan.shut = false := h1.selfA.shut
        unfold Link.stepA; rw [if_neg (by simp [hsh])]
      rw [e] at i1
      have hI := mk_put (opsA' := opsA) (opsB' := opsB) (add := []) (out := []) (GS' := GS) (rd := m.a.rd) (buf := m.a.buf) (ba2 := m.ba) (na' := na)
        (x := { m.a.chans c with chan := { (m.a.chans c).chan with win := (m.a.chans c).chan.win.setWindow n } })
        h hc h.bufA (by rw [List.append_nil]; exact i1) h2 (by intro f hf; cases hf)
        (by rw [List.append_nil, List.append_nil]; exact h.rdB) h.rdA (fun f hf => hf) (fun d hd => rfl)
        (by intro d _ hd; simp [mkQueued, mkWindows, Ne.symm hd])
      rw [List.append_nil, List.append_nil] at hI
      refine ⟨FS, GS, hI, ?_, by intro x; cases x⟩
      intro d hd
      by_cases hdc : d = c
      · subst hdc
        rw [mk_put_self]
        simp [manyAsksNow, mkSends]
      · show ((m.a.put c _).chans d).sent.map lkKind = _ ∧ lkMsgs ((m.a.put c _).chans d).sent = _
        rw [mk_put_other _ _ _ _ hdc]
        simp [manyAsksNow, mkSends]
    · rw [if_neg hc]
      refine ⟨FS, GS, ⟨h.upA, h.upB, h.bufA, h.bufB, h.rdA, h.rdB, h.chF, h.chG, ?_⟩, ?_, by intro x; cases x⟩
      · intro d hd
        have hdc : c ≠ d := fun e => hc (e ▸ hd)
        have := h.each d hd
        simpa [Alone, mkQueued, mkWindows, hdc] using this
      · intro d hd
        simp [manyAsksNow, mkSends]
  | round c =>
    have hstep : m.stepA chs (.round c) = if c ∈ chs then { m with a := (m.a.round c).1, ab := m.ab ++ (m.a.round c).2 } else m := by
      unfold ManyLink.stepA; rw [if_neg (by simp [hup])]
    have h : ManyInv chs m na nb FS GS opsA opsB NA NB := by
      refine ⟨h.upA, h.upB, h.bufA, h.bufB, h.rdA, h.rdB, h.chF, h.chG, ?_⟩
      intro d hd
      have := h.each d hd
      simpa [Alone, mkQueued, mkWindows] using this
    rw [hstep]
    by_cases hc : c ∈ chs
    · rw [if_pos hc]
      obtain ⟨ab, ba, h1, h2, h3⟩ := h.each c hc
      have h1b := h1.setBuf m.a.buf h.bufA
      have hsh : (m.a.chans c).chan.shut = false := h1.selfA.shut
      have e : Link.stepA c ⟨{ m.a.chans c with buf := m.a.buf }, m.b.chans c, ab, ba⟩ .round =
          ⟨(Endpoint.round { m.a.chans c with buf := m.a.buf }).1, m.b.chans c,
            ab ++ (Endpoint.round { m.a.chans c with buf := m.a.buf }).2, ba⟩ := by
        unfold Link.stepA; rw [if_neg (by simp [hsh])]
      have hrd : (Endpoint.round { m.a.chans c with buf := m.a.buf }).1.rd = .init := by rw [mk_round_rd]; exact h2
      have ht := lk_round_header (hchs c hc) h1b
      rw [show Link.stepA c { (⟨m.a.chans c, m.b.chans c, ab, ba⟩ : Link) with a := { m.a.chans c with buf := m.a.buf } } .round = _ from e] at ht
      have hR : m.a.round c = ({ m.a.put c { (Endpoint.round { m.a.chans c with buf := m.a.buf }).1 with buf := (m.a.chans c).buf } with
            buf := (Endpoint.round { m.a.chans c with buf := m.a.buf }).1.buf },
          (Endpoint.round { m.a.chans c with buf := m.a.buf }).2) := rfl
      rw [hR]
      generalize Endpoint.round { m.a.chans c with buf := m.a.buf } = R at *
      obtain ⟨A, out⟩ := R
      simp only at ht hrd ⊢
      rcases ht with ⟨i1, _⟩ | ⟨f, header, j0, j1, j2, j3, j4, j5, j6, j7, j8, j9, j10, j11, j12, j13⟩
      · simp only [Link.mk.injEq, true_and] at i1
        obtain ⟨i1, i2, _⟩ := i1
        have i2 : out = [] := List.append_right_eq_self.mp i2
        subst i2 i1
        have e3 : (⟨fun d => if d = c then m.a.chans c else m.a.chans d, m.a.rd, m.a.buf, m.a.down || (m.a.chans c).chan.shut⟩ : ManyEnd) = m.a := by
          have hf : (fun d => if d = c then m.a.chans c else m.a.chans d) = m.a.chans := by
            funext d; by_cases hd : d = c
            · rw [if_pos hd, hd]
            · rw [if_neg hd]
          have hd : (m.a.down || (m.a.chans c).chan.shut) = m.a.down := by rw [hsh, Bool.or_false]
          rw [hf, hd]
        have e2 : ManyLink.mk (ManyEnd.mk (fun d => if d = c then m.a.chans c else m.a.chans d) m.a.rd m.a.buf (m.a.down || (m.a.chans c).chan.shut))
            m.b (m.ab ++ []) m.ba = m := by rw [e3, List.append_nil]
        have key : ∀ M : ManyLink, M = m → ∃ FS' GS', ManyInv chs M (mkCount na m (.round c)) nb FS' GS' opsA opsB NA NB ∧
            (∀ d ∈ chs, (M.a.chans d).sent.map lkKind = (m.a.chans d).sent.map lkKind ++ manyAsksNow m.a d (.round c) ∧
              lkMsgs (M.a.chans d).sent = lkMsgs (m.a.chans d).sent + mkSends d (.round c)) ∧
            (manyOfLibrary (.round c) = true → M ≠ m → mkMeasure chs M FS' GS' < mkMeasure chs m FS GS) := by
          intro M hM
          subst hM
          exact ⟨FS, GS, h, fun d hd => by simp [manyAsksNow, mkSends], fun _ x => absurd rfl x⟩
        exact key _ e2
      · have j2 : out = header ++ bodyOf f := List.append_cancel_left j2
        have hfc : f.channel = c := j1.chF f (by simp)
        have hA := j1.setBuf (m.a.chans c).buf h1.selfA.buf
        have hof : mkOf c (FS ++ [f]) = mkOf c FS ++ [f] := by
          rw [mk_of_append, mk_of_own (fs := [f]) (by intro g hg; rw [List.mem_singleton.mp hg]; exact hfc)]
        have hI := mk_put (opsA' := opsA) (opsB' := opsB) (add := [f]) (out := out) (GS' := GS) (rd := m.a.rd) (buf := A.buf) (ba2 := m.ba) (na' := na)
          (x := { A with buf := (m.a.chans c).buf })
          h hc j1.selfA.buf (by rw [hof]; exact hA) hrd (by intro g hg; rw [List.mem_singleton.mp hg]; exact hfc)
          (by rw [j2]; exact h.rdB.snoc f (j1.rdB.legal f (by simp)) header j0) h.rdA (fun f hf => hf) (fun d hd => rfl) (fun _ _ _ => ⟨rfl, rfl⟩)
        refine ⟨FS ++ [f], GS, hI, ?_, ?_⟩
        · intro d hd
          by_cases hdc : d = c
          · subst hdc
            show ((m.a.put d _).chans d).sent.map lkKind = _ ∧ lkMsgs ((m.a.put d _).chans d).sent = _
            rw [mk_put_self]
            show A.sent.map lkKind = _ ∧ lkMsgs A.sent = _
            rw [j11]; simp [manyAsksNow, mkSends]
          · show ((m.a.put c _).chans d).sent.map lkKind = _ ∧ lkMsgs ((m.a.put c _).chans d).sent = _
            rw [mk_put_other _ _ _ _ hdc]; simp [manyAsksNow, mkSends]
        · intro _ _
          have hsum := mk_sum_less (mkPend ⟨{ m.a.put c { A with buf := (m.a.chans c).buf } with buf := A.buf }, m.b, m.ab ++ out, m.ba⟩) (mkPend m)
            f.size c chs hc (by
              intro d hd
              unfold mkPend
              by_cases hdc : d = c
              · subst hdc
                show (((m.a.put d _).chans d).snd.pending.map (·.messageSize)).sum + _ ≤ _
                rw [mk_put_self]
                show (A.snd.pending.map (·.messageSize)).sum + _ ≤ _
                have : (A.snd.pending.map (·.messageSize)).sum + f.size = ((m.a.chans d).snd.pending.map (·.messageSize)).sum := j13
                simp only; omega
              · show (((m.a.put c _).chans d).snd.pending.map (·.messageSize)).sum + _ ≤ _
                rw [mk_put_other _ _ _ _ hdc]
                exact Int.le_refl _) (by
              unfold mkPend
              show (((m.a.put c _).chans c).snd.pending.map (·.messageSize)).sum + _ + _ ≤ _
              rw [mk_put_self]
              show (A.snd.pending.map (·.messageSize)).sum + _ + _ ≤ _
              have : (A.snd.pending.map (·.messageSize)).sum + f.size = ((m.a.chans c).snd.pending.map (·.messageSize)).sum := j13
              simp only; omega)
          unfold mkMeasure
          rw [lk_data_snoc, if_neg j4, j2] at *
          unfold bodyOf at *
          rw [if_neg j4] at *
          have e1 : (lit "END").length = 3 := rfl
          have e2 : crlf.length = 2 := rfl
          simp only [List.length_append, e1, e2, List.length_cons, List.length_nil] at *
          omega
    · rw [if_neg hc]
      exact ⟨FS, GS, h, fun d hd => by simp [manyAsksNow, mkSends], fun _ x => absurd rfl x⟩
  | read k =>
    have h : ManyInv chs m na nb FS GS opsA opsB NA NB := by
      refine ⟨h.upA, h.upB, h.bufA, h.bufB, h.rdA, h.rdB, h.chF, h.chG, ?_⟩
      intro d hd
      have := h.each d hd
      simpa [Alone, mkQueued, mkWindows] using this
    obtain ⟨r1, r2⟩ := hr k rfl
    by_cases hk : m.ba.take k = []
    · have e : m.stepA chs (.read k) = m := by
        unfold ManyLink.stepA; rw [if_neg (by simp [hup])]; simp only [if_pos hk]
      rw [e]
      refine ⟨FS, GS, ?_, fun c hc => by simp [manyAsksNow, mkSends], fun _ x => absurd rfl x⟩
      show ManyInv chs m (interruptions na m.a.rd (m.ba.take k)) nb FS GS opsA opsB NA NB
      rw [hk, lk_interruptions_nil]
      exact h
    · obtain ⟨FS', GS', h1, h2, h3, h4, h5⟩ := mk_read hchs h hk r1 r2
      refine ⟨FS', GS', h1, fun c hc => by rw [h2 c]; simp [manyAsksNow, mkSends], fun _ _ => h5⟩

end Verif.Proof
