import Verif.Spec.ConnNew
import Verif.Props.GreetExchange
import Verif.Proof.Stream
namespace Verif.Props
open Verif.Model Verif.Spec Verif.Proof

/-! ### What the frame reader hands over -/

def aux_cn_hdrP (N : Nat) (type : FType) : HdrResult → Prop
  | .ok _ _ f => f.type = type ∧ f.more = false ∧ f.seqno < N
  | .sentinel f => f.type = type ∧ f.more = false ∧ f.seqno < N
  | _ => True

theorem aux_cn_sent {N : Nat} {type : FType} {f : Frame} (h1 : f.type = type) (h2 : f.more = false) (h3 : f.seqno < N) :
    aux_cn_hdrP N type (.sentinel f) := ⟨h1, h2, h3⟩

theorem aux_cn_okk {N : Nat} {type : FType} {f : Frame} {p : Nat} {mc : Byte} (h1 : f.type = type) (h2 : f.more = false) (h3 : f.seqno < N) :
    aux_cn_hdrP N type (.ok p mc f) := ⟨h1, h2, h3⟩

theorem aux_cn_triv {N : Nat} {type : FType} :
    aux_cn_hdrP N type .wrong ∧ aux_cn_hdrP N type .outside ∧ aux_cn_hdrP N type .closed := ⟨True.intro, True.intro, True.intro⟩

theorem aux_cn_elim {N : Nat} {type : FType} {r : HdrResult} (h : aux_cn_hdrP N type r) :
    (∀ pos mc f, r = .ok pos mc f → f.type = type ∧ f.more = false ∧ f.seqno < N) ∧
    (∀ f, r = .sentinel f → f.type = type ∧ f.more = false ∧ f.seqno < N) := by
  constructor
  · intro pos mc f hf; rw [hf] at h; exact h
  · intro f hf; rw [hf] at h; exact h

attribute [local irreducible] aux_cn_hdrP

theorem aux_cn_ite {N : Nat} {type : FType} {c : Prop} [Decidable c] {a b : HdrResult} (ha : aux_cn_hdrP N type a) (hb : aux_cn_hdrP N type b) :
    aux_cn_hdrP N type (if c then a else b) := by
  by_cases h : c
  · rw [if_pos h]; exact ha
  · rw [if_neg h]; exact hb

theorem aux_cn_hdr (N : Nat) (hz : 0 < N) (type : FType) (mem : List Byte) (hl : Int) (hu : ∀ d, strtoulUInt d < N) :
    aux_cn_hdrP N type (getHeaderData type mem hl) := by
  unfold getHeaderData
  dsimp only [Frame.zero]
  refine aux_cn_ite aux_cn_triv.1 ?_
  generalize scanField mem = x
  cases x with
  | outside => exact aux_cn_triv.2.1
  | bad => exact aux_cn_triv.2.2
  | ok d1 r1 =>
    dsimp only
    refine aux_cn_ite (aux_cn_sent rfl rfl hz) (aux_cn_ite aux_cn_triv.1 (aux_cn_ite ?_ ?_))
    · generalize scanField r1 = x
      cases x with
      | outside => exact aux_cn_triv.2.1
      | bad => exact aux_cn_triv.2.2
      | ok d2 r2 =>
        dsimp only
        refine aux_cn_ite (aux_cn_sent rfl rfl (hu _)) (aux_cn_ite aux_cn_triv.1 ?_)
        generalize scanField r2 = x
        cases x with
        | outside => exact aux_cn_triv.2.1
        | bad => exact aux_cn_triv.2.2
        | ok d3 r3 => exact aux_cn_ite (aux_cn_sent rfl rfl (hu _)) (aux_cn_ite aux_cn_triv.1 (aux_cn_okk rfl rfl (hu _)))
    · generalize scanField r1 = x
      cases x with
      | outside => exact aux_cn_triv.2.1
      | bad => exact aux_cn_triv.2.2
      | ok d2 r2 =>
        dsimp only
        refine aux_cn_ite (aux_cn_sent rfl rfl hz) (aux_cn_ite aux_cn_triv.1 ?_)
        match r2 with
        | [] => exact aux_cn_triv.2.1
        | [_] => exact aux_cn_triv.2.1
        | mc :: _ :: r3 =>
          dsimp only
          generalize scanField r3 = x
          cases x with
          | outside => exact aux_cn_triv.2.1
          | bad => exact aux_cn_triv.2.2
          | ok d4 r4 =>
            dsimp only
            generalize scanField r4 = x
            cases x with
            | outside => exact aux_cn_triv.2.1
            | bad => exact aux_cn_triv.2.2
            | ok d5 r5 =>
              dsimp only
              refine aux_cn_ite ?_ (aux_cn_okk rfl rfl (hu _))
              generalize scanField r5 = x
              cases x with
              | outside => exact aux_cn_triv.2.1
              | bad => exact aux_cn_triv.2.2
              | ok d6 r6 => exact (aux_cn_okk rfl rfl (hu _))

theorem aux_cn_header (type : FType) (mem : List Byte) (hl : Int) :
    (∀ pos mc f, getHeaderData type mem hl = .ok pos mc f → f.type = type ∧ f.more = false ∧ f.seqno < 4294967296) ∧
    (∀ f, getHeaderData type mem hl = .sentinel f → f.type = type ∧ f.more = false ∧ f.seqno < 4294967296) :=
  aux_cn_elim (aux_cn_hdr 4294967296 (by decide) type mem hl (by intro d; unfold strtoulUInt u32; omega))

/-- A frame as it comes from the wire. -/
def aux_cn_wf (f : Frame) : Prop :=
  f.seqno < 4294967296 ∧ ((f.type = .seq ∧ f.more = false) ∨ (f.type ≠ .seq ∧ f.size = f.payload.length))

def aux_cn_inv (st : ReadState) : Prop :=
  ∀ f got rem, st.partialFrame = some (f, got, rem) →
    f.type ≠ .seq ∧ f.seqno < 4294967296 ∧ 0 ≤ f.size ∧ (got.length : Int) + rem = f.size + 5

def aux_cn_chkP : Next ⊕ Frame → Prop
  | .inl n => (∀ f st', n = .frame f st' → aux_cn_wf f ∧ st'.partialFrame = none) ∧ ∀ st', n ≠ .pending st'
  | .inr f => f.type ≠ .seq ∧ f.seqno < 4294967296

theorem aux_cn_check (env : ReadEnv) (line : List Byte) (st : ReadState) (hp : st.partialFrame = none) :
    (∀ n, checkHeader env line st = .inl n → ∀ f st', n = .frame f st' → aux_cn_wf f ∧ st'.partialFrame = none) ∧
    (∀ n, checkHeader env line st = .inl n → ∀ st', n ≠ .pending st') ∧
    (∀ f, checkHeader env line st = .inr f → f.type ≠ .seq ∧ f.seqno < 4294967296) := by
  have h : aux_cn_chkP (checkHeader env line st) := by
    unfold checkHeader
    split
    · simp [aux_cn_chkP]
    · split
      · simp [aux_cn_chkP]
      · next type _ =>
        have hd := aux_cn_header type (line.drop 4 ++ [NUL]) ((line.length : Int) - 4)
        split
        · simp [aux_cn_chkP]
        · simp [aux_cn_chkP]
        · simp [aux_cn_chkP]
        · next f hf =>
          obtain ⟨h1, h2, h3⟩ := hd.2 f hf
          split
          · simp [aux_cn_chkP]
          · split
            · next hs => simp [aux_cn_chkP, aux_cn_wf, h1, h2, h3, hs, hp]
            · simp [aux_cn_chkP]
        · next pos mc f hf =>
          obtain ⟨h1, h2, h3⟩ := hd.1 pos mc f hf
          split
          · simp [aux_cn_chkP]
          · split
            · next hs => simp [aux_cn_chkP, aux_cn_wf, h1, h2, h3, hs, hp]
            · next hs =>
              split
              · simp [aux_cn_chkP]
              · split
                · simp [aux_cn_chkP]
                · simp only
                  generalize env.seqnoOk f.channel f.seqno f.size = b
                  cases b
                  · simp [aux_cn_chkP]
                  · simp [aux_cn_chkP, h1, h3, hs]
  refine ⟨?_, ?_, ?_⟩
  · intro n hn; rw [hn] at h; exact h.1
  · intro n hn; rw [hn] at h; exact h.2
  · intro f hf; rw [hf] at h; exact h

theorem aux_cn_process (f : Frame) (got : List Byte) (st : ReadState) (h1 : f.type ≠ .seq) (h2 : f.seqno < 4294967296) (h3 : 0 ≤ f.size)
    (h4 : (got.length : Int) = f.size + 5) :
    (∀ g st', processBuffer f got st = .frame g st' → aux_cn_wf g ∧ st' = st) ∧ ∀ st', processBuffer f got st ≠ .pending st' := by
  unfold processBuffer
  split
  · refine ⟨?_, by simp⟩
    intro g st' h
    simp only [Next.frame.injEq] at h
    obtain ⟨rfl, rfl⟩ := h
    refine ⟨⟨h2, Or.inr ⟨h1, ?_⟩⟩, rfl⟩
    simp only [List.length_take]
    omega
  · simp

theorem aux_cn_take : ∀ (sc : List Tok) (n : Nat), (takeBytes n sc).1.length ≤ n := by
  intro sc
  induction sc with
  | nil => intro n; cases n <;> simp [takeBytes]
  | cons t sc ih =>
    intro n
    cases n with
    | zero => cases t <;> simp [takeBytes]
    | succ n =>
      cases t <;> simp only [takeBytes, List.length_cons, List.length_nil, Nat.zero_le]
      have := ih n
      omega

theorem aux_cn_recv (n : Nat) : ∀ (sc : List Tok) (bs : List Byte) (r : List Tok), recv n sc = (.data bs, r) → bs.length ≤ n := by
  intro sc
  induction sc with
  | nil => intro bs r h; simp [recv] at h
  | cons t sc ih =>
    intro bs r h
    cases t with
    | byte b =>
      simp only [recv, Prod.mk.injEq, Recv.data.injEq] at h
      rw [← h.1]; exact aux_cn_take _ _
    | cut => exact ih bs r h
    | again => simp [recv] at h
    | eof => simp [recv] at h

theorem aux_cn_payload (f : Frame) (st : ReadState) (script : List Tok) (h1 : f.type ≠ .seq) (h2 : f.seqno < 4294967296)
    (hp : st.partialFrame = none) :
    (∀ g st' r, readPayload f st script = (.frame g st', r) → aux_cn_wf g ∧ aux_cn_inv st') ∧
    (∀ st' r, readPayload f st script = (.pending st', r) → aux_cn_inv st') := by
  have hi : aux_cn_inv st := by intro a b c h; rw [hp] at h; cases h
  unfold readPayload
  split
  · exact ⟨by simp, by intro st' r h; simp only [Prod.mk.injEq, Next.pending.injEq] at h; rw [← h.1]; exact hi⟩
  · split
    · exact ⟨by simp, by simp⟩
    · next h3 h4 =>
      simp only
      split
      · exact ⟨by simp, by simp⟩
      · refine ⟨by simp, ?_⟩
        intro st' r h
        simp only [Prod.mk.injEq, Next.pending.injEq] at h
        rw [← h.1]
        intro a b c hh
        simp only [Option.some.injEq, Prod.mk.injEq] at hh
        obtain ⟨rfl, rfl, rfl⟩ := hh
        refine ⟨h1, h2, by omega, ?_⟩
        simp only [List.length_nil]
        omega
      · next bs r hr =>
        have hl := aux_cn_recv _ _ _ _ hr
        split
        · next hb =>
          have hq := aux_cn_process f bs st h1 h2 (by omega) (by omega)
          refine ⟨?_, ?_⟩
          · intro g st' r h
            simp only [Prod.mk.injEq] at h
            obtain ⟨h5, h6⟩ := hq.1 g st' h.1
            exact ⟨h5, h6 ▸ hi⟩
          · intro st' r h
            simp only [Prod.mk.injEq] at h
            exact absurd h.1 (hq.2 st')
        · refine ⟨by simp, ?_⟩
          intro st' r h
          simp only [Prod.mk.injEq, Next.pending.injEq] at h
          rw [← h.1]
          intro a b c hh
          simp only [Option.some.injEq, Prod.mk.injEq] at hh
          obtain ⟨rfl, rfl, rfl⟩ := hh
          refine ⟨h1, h2, by omega, ?_⟩
          omega

theorem aux_cn_next (env : ReadEnv) (st : ReadState) (script : List Tok) (hi : aux_cn_inv st) :
    (∀ f st' r, getNext env st script = (.frame f st', r) → aux_cn_wf f ∧ aux_cn_inv st') ∧
    (∀ st' r, getNext env st script = (.pending st', r) → aux_cn_inv st') := by
  unfold getNext
  split
  · next f got rem hpf =>
    obtain ⟨h1, h2, h3, h4⟩ := hi f got rem hpf
    split
    · simp
    · simp
    · next bs r hr =>
      have hl := aux_cn_recv _ _ _ _ hr
      split
      · refine ⟨by simp, ?_⟩
        intro st' r h
        simp only [Prod.mk.injEq, Next.pending.injEq] at h
        rw [← h.1]
        intro a b c hh
        simp only [Option.some.injEq, Prod.mk.injEq] at hh
        obtain ⟨rfl, rfl, rfl⟩ := hh
        refine ⟨h1, h2, h3, ?_⟩
        simp only [List.length_append]
        omega
      · next hb =>
        have hq := aux_cn_process f (got ++ bs) { st with partialFrame := none } h1 h2 h3 (by simp only [List.length_append]; omega)
        refine ⟨?_, ?_⟩
        · intro g st' r h
          simp only [Prod.mk.injEq] at h
          obtain ⟨h5, h6⟩ := hq.1 g st' h.1
          refine ⟨h5, ?_⟩
          rw [h6]
          intro a b c hh
          cases hh
        · intro st' r h
          simp only [Prod.mk.injEq] at h
          exact absurd h.1 (hq.2 st')
  · next hpf =>
    simp only
    split
    · simp
    · split
      · split
        · simp
        · refine ⟨by simp, ?_⟩
          intro st' r h
          simp only [Prod.mk.injEq, Next.pending.injEq] at h
          rw [← h.1]
          intro a b c hh
          simp only [hpf] at hh
          cases hh
      · simp
      · simp
      · next line r hr =>
        have hc := aux_cn_check env line { st with pendingLine := none, noDataOpers := 0 } hpf
        split
        · next n hn =>
          refine ⟨?_, ?_⟩
          · intro f st' r h
            simp only [Prod.mk.injEq] at h
            obtain ⟨h5, h6⟩ := hc.1 n hn f st' h.1
            refine ⟨h5, ?_⟩
            intro a b c hh
            rw [h6] at hh
            cases hh
          · intro st' r h
            simp only [Prod.mk.injEq] at h
            exact absurd h.1 (hc.2.1 n hn st')
        · next f hf =>
          obtain ⟨h5, h6⟩ := hc.2.2 f hf
          exact aux_cn_payload f _ _ h5 h6 hpf

/-! ### A connection reported as working had its greetings -/

theorem aux_cn_client (p : Option VFrame) (f : Frame) (hf : aux_cn_wf f) (hp : ∀ q, p = some q → q.type ≠ .seq) :
    ∀ r q, clientGreeting p (VFrame.ofWire f) = (r, q) → r = .waiting ∨ (∃ b, r = .accepted b) →
      fromWire (VFrame.ofWire f) ∧ ∀ q', q = some q' → q'.type ≠ .seq := by
  intro r q h hr
  have hs : f.type ≠ .seq := by
    intro hs
    have hm : f.more = false := by
      rcases hf.2 with h | h
      · exact h.2
      · exact absurd hs h.1
    cases p with
    | none =>
      simp only [clientGreeting, VFrame.ofWire, hm, greetingReply, hs] at h
      grind
    | some p =>
      have := hp p rfl
      simp only [clientGreeting, VFrame.join, VFrame.joinable, VFrame.ofWire, hs] at h
      grind
  refine ⟨⟨rfl, hf.1, f.payload, rfl, ?_⟩, ?_⟩
  · rcases hf.2 with h | h
    · exact absurd h.1 hs
    · exact h.2
  · cases p with
    | none =>
      simp only [clientGreeting] at h
      intro q' hq
      split at h
      · simp only [Prod.mk.injEq] at h
        rw [← h.2] at hq
        cases hq
        exact hs
      · simp only [Prod.mk.injEq] at h
        rw [← h.2] at hq
        cases hq
    | some p =>
      have := hp p rfl
      simp only [clientGreeting, VFrame.join] at h
      grind

theorem aux_cn_snoc (f : VFrame) : ∀ (fs : List VFrame) (p q : Option VFrame),
    greetingRun clientGreeting p fs = (.waiting, q, []) →
    greetingRun clientGreeting p (fs ++ [f]) =
      (match clientGreeting q f with | (.waiting, q') => (.waiting, q', []) | (r, q') => (r, q', [])) := by
  intro fs
  induction fs with
  | nil =>
    intro p q h
    simp only [greetingRun, Prod.mk.injEq, true_and, and_true] at h
    subst h
    simp only [List.nil_append, greetingRun]
    rcases clientGreeting p f with ⟨r, q⟩
    cases r <;> rfl
  | cons g fs ih =>
    intro p q h
    rw [List.cons_append]
    simp only [greetingRun] at h ⊢
    split at h
    · next q' hg => exact ih q' q h
    · next hne =>
      simp only [Prod.mk.injEq] at h
      grind

structure aux_cn_Inv (s : GxState) : Prop where
  read : aux_cn_inv s.st
  run : s.isOk = true → greetingRun clientGreeting none (s.got.map VFrame.ofWire) = (.waiting, s.pending, [])
  wire : s.isOk = true → ∀ f ∈ s.got, fromWire (VFrame.ofWire f)
  kind : s.isOk = true → ∀ q, s.pending = some q → q.type ≠ .seq

theorem aux_cn_null (s t : GxState) (h : aux_cn_Inv s) (hn : gxNull s = .go t) : aux_cn_Inv t := by
  simp only [gxNull] at hn
  split at hn
  · split at hn
    · cases hn
    · split at hn
      · cases hn
      · cases hn
        exact ⟨h.read, h.run, h.wire, h.kind⟩
  · split at hn
    · cases hn; exact h
    · cases hn

theorem aux_cn_null_ok (s : GxState) (body : List Byte) (got : List Frame) (rest : List Tok) : gxNull s ≠ .stop (.ok body got rest) := by
  simp only [gxNull]
  grind

theorem aux_cn_step (e : GxEnv) (s : GxState) (h : aux_cn_Inv s) :
    (∀ t, gxStep e s = .go t → aux_cn_Inv t) ∧
    (∀ body got rest, gxStep e s = .stop (.ok body got rest) →
      (∀ f ∈ got, fromWire (VFrame.ofWire f)) ∧ e.parse body = true ∧
      greetingRun clientGreeting none (got.map VFrame.ofWire) = (.accepted body, none, [])) := by
  unfold gxStep
  split
  · exact ⟨fun t => aux_cn_null s t h, fun b g r hh => absurd hh (aux_cn_null_ok s b g r)⟩
  · next hok =>
    have hok : s.isOk = true := by simpa using hok
    have hnx := aux_cn_next e.read s.st s.script h.read
    split
    · next f st r hr =>
      obtain ⟨hw, hi⟩ := hnx.1 f st r hr
      have hcl := aux_cn_client s.pending f hw (h.kind hok)
      split
      · next p hp =>
        obtain ⟨h1, h2⟩ := hcl _ _ hp (Or.inl rfl)
        refine ⟨fun t => aux_cn_null _ t ⟨hi, ?_, ?_, fun _ => h2⟩, fun b g r hh => absurd hh (aux_cn_null_ok _ b g r)⟩
        · intro _
          simp only [List.map_append, List.map_cons, List.map_nil]
          rw [aux_cn_snoc _ _ _ _ (h.run hok), hp]
        · intro _ g hg
          simp only [List.mem_append, List.mem_singleton] at hg
          rcases hg with hg | rfl
          · exact h.wire hok g hg
          · exact h1
      · next p hp =>
        refine ⟨fun t => aux_cn_null _ t ⟨hi, ?_, ?_, ?_⟩, fun b g r hh => absurd hh (aux_cn_null_ok _ b g r)⟩ <;> simp
      · exact ⟨by simp, by simp⟩
      · next body q hp =>
        refine ⟨by simp, ?_⟩
        intro b g r' hh
        obtain ⟨h1, h2⟩ := hcl _ _ hp (Or.inr ⟨body, rfl⟩)
        cases hpar : e.parse body with
        | false => simp [hpar] at hh
        | true =>
          simp only [hpar, if_true, GxNext.stop.injEq, GxEnd.ok.injEq] at hh
          obtain ⟨rfl, rfl, rfl⟩ := hh
          refine ⟨?_, hpar, ?_⟩
          · intro g hg
            simp only [List.mem_append, List.mem_singleton] at hg
            rcases hg with hg | rfl
            · exact h.wire hok g hg
            · exact h1
          · simp only [List.map_append, List.map_cons, List.map_nil]
            rw [aux_cn_snoc _ _ _ _ (h.run hok), hp]
            have hq : q = none := by
              simp only [clientGreeting] at hp
              grind
            rw [hq]
    · next st r hr =>
      exact ⟨fun t => aux_cn_null _ t ⟨hnx.2 st r hr, h.run, h.wire, h.kind⟩, fun b g r hh => absurd hh (aux_cn_null_ok _ b g r)⟩
    · refine ⟨fun t => aux_cn_null _ t ⟨h.read, ?_, ?_, ?_⟩, fun b g r hh => absurd hh (aux_cn_null_ok _ b g r)⟩ <;> simp
    · exact ⟨by simp, by simp⟩
    · exact ⟨by simp, by simp⟩

theorem aux_cn_run (e : GxEnv) : ∀ (n : Nat) (s : GxState), aux_cn_Inv s → ∀ body got rest,
    gxRun e n s = some (.ok body got rest) → (∀ f ∈ got, fromWire (VFrame.ofWire f)) ∧ e.parse body = true ∧
      greetingRun clientGreeting none (got.map VFrame.ofWire) = (.accepted body, none, []) := by
  intro n
  induction n with
  | zero => intro s _ body got rest h; simp [gxRun] at h
  | succ n ih =>
    intro s hs body got rest h
    simp only [gxRun] at h
    have hst := aux_cn_step e s hs
    split at h
    · next t ht => exact ih t (hst.1 t ht) body got rest h
    · next r hr =>
      simp only [Option.some.injEq] at h
      subst h
      exact hst.2 body got rest hr
    · cases h

theorem aux_cn_init (script : List Tok) (timeout : Int) (waits : List (Int × Int)) : aux_cn_Inv (.init script timeout waits) :=
  ⟨(by intro f g r h; cases h), fun _ => rfl, (by intro _ f hf; simp [GxState.init] at hf), (by intro _ q hq; cases hq)⟩

/-- A connection that is reported as working has its socket, and greetings that are valid and came as the first reply on channel 0. -/
theorem C93_ok (n : Nat) (e : NewEnv) (told returned : Option Bool) (sock : Bool) (g : Option (List Byte))
    (h : connNew n e = some (.done told returned sock g)) (hok : told = some true ∨ returned = some true) :
    sock = true ∧ ∃ (body : List Byte) (fs : List Frame), g = some body ∧ e.gx.parse body = true ∧ FirstReply (fs.map VFrame.ofWire) ∧
      beepContent (fs.map VFrame.ofWire) body := by
  simp only [connNew, newReport] at h
  cases ht : tcpConnect e.tcp with
  | none => simp [ht] at h; grind
  | some r =>
    simp only [ht] at h
    cases hg : gxRun e.gx n (.init e.script r.left e.waits) with
    | none => simp only [hg] at h; grind
    | some x =>
      simp only [hg] at h
      cases x with
      | failed => grind
      | outside => grind
      | ok body fs rest =>
        obtain ⟨h1, h2, h3⟩ := aux_cn_run e.gx n _ (aux_cn_init _ _ _) body fs rest hg
        obtain ⟨_, ws, h4, h5, h6⟩ := (C50_initiator (fs.map VFrame.ofWire) (by
          intro f hf
          obtain ⟨f', hf', rfl⟩ := List.mem_map.mp hf
          exact h1 f' hf') body none []).mp h3
        simp only [List.append_nil] at h4
        refine ⟨by grind, body, fs, by grind, h2, h4 ▸ h5, h4 ▸ h6⟩

/-- If the context works, host and port are given and the address of the socket can be found out, the caller learns the outcome, and a
connection that does not work has no socket. -/
theorem C93_told_partial (n : Nat) (e : NewEnv) (told returned : Option Bool) (sock : Bool) (g : Option (List Byte))
    (h : connNew n e = some (.done told returned sock g)) (hs : e.started = true) (hn : e.nameOk = true) :
    ∃ ok, newTold e ok told returned ∧ sock = ok ∧ g.isSome = ok := by
  simp only [connNew, newReport] at h
  simp only [newTold]
  cases ht : tcpConnect e.tcp with
  | none => simp [ht, hs] at h
  | some r =>
    simp only [ht, hs, hn] at h
    cases hg : gxRun e.gx n (.init e.script r.left e.waits) with
    | none => simp only [hg] at h; grind
    | some x =>
      simp only [hg] at h
      cases x <;> grind

/-- C93 is violated: when the address of the socket cannot be found out, nobody is told, and the socket stays open. -/
theorem C93_unnamed (n : Nat) (e : NewEnv) (r : TcpResult) (hs : e.started = true) (hn : e.nameOk = false)
    (ht : tcpConnect e.tcp = some r) (hr : r.ok = true) : connNew n e = some (.done none none true none) := by
  simp [connNew, hs, hn, ht, hr]

/-- C93 is violated: without host and port, or with a context that ends, the function that was given is never called. -/
theorem C93_not_started (n : Nat) (e : NewEnv) (hs : e.started = false) : connNew n e = some (.done none none false none) := by
  simp [connNew, hs]

/-! ### Reading from a socket that blocks -/

theorem aux_cn_line (X : List Tok) : ∀ (hs : List Tok), .eof ∉ hs → .again ∉ hs → ∀ (l : List Byte), LF ∉ l → octets hs = l ++ [LF] →
    ∀ (fuel : Nat), l.length + 1 ≤ fuel → ∀ (first : Bool) (acc : List Byte),
    ∃ cs, (∀ t ∈ cs, t = .cut) ∧ readlineLoop fuel first acc (hs ++ X) = (.complete (acc ++ l ++ [LF]), cs ++ X) := by
  intro hs
  induction hs with
  | nil => intro _ _ l _ ho; simp [octets] at ho
  | cons t hs ih =>
    intro he ha l hl ho fuel hf first acc
    simp only [List.mem_cons, not_or] at he ha
    match fuel, hf with
    | fuel + 1, hf =>
    cases t with
    | eof => exact absurd rfl he.1
    | again => exact absurd rfl ha.1
    | cut =>
      obtain ⟨cs, h1, h2⟩ := ih he.2 ha.2 l hl (by simpa [octets] using ho) (fuel + 1) hf first acc
      exact ⟨cs, h1, by simpa [readlineLoop] using h2⟩
    | byte c =>
      match l, hl, ho with
      | [], _, ho =>
        simp only [octets, List.nil_append, List.cons.injEq] at ho
        obtain ⟨hc, ho'⟩ := ho
        refine ⟨hs, ?_, by simp [readlineLoop, hc]⟩
        intro t ht
        rcases octets_nil_junk hs he.2 ho' t ht with h | h
        · exact h
        · exact absurd (h ▸ ht) ha.2
      | x :: l, hl, ho =>
        simp only [octets, List.cons_append, List.cons.injEq] at ho
        obtain ⟨rfl, ho⟩ := ho
        simp only [List.mem_cons, not_or] at hl
        have hc : c ≠ LF := fun h => hl.1 h.symm
        obtain ⟨cs, h1, h2⟩ := ih he.2 ha.2 l hl.2 ho fuel (by simp only [List.length_cons] at hf; omega) false (acc ++ [c])
        exact ⟨cs, h1, by simpa [readlineLoop, hc] using h2⟩

theorem aux_cn_cuts (n : Nat) (X : List Tok) : ∀ (cs : List Tok), (∀ t ∈ cs, t = .cut) → recv n (cs ++ X) = recv n X := by
  intro cs
  induction cs with
  | nil => intro _; rfl
  | cons t cs ih =>
    intro h
    rw [h t (by simp)]
    exact ih (fun t ht => h t (by simp [ht]))

theorem aux_cn_bytes (X : List Tok) : ∀ (bs : List Byte), takeBytes bs.length (bs.map .byte ++ X) = (bs, X) := by
  intro bs
  induction bs with
  | nil => rfl
  | cons b bs ih => simp [takeBytes, ih]

theorem aux_cn_short (X : List Tok) : ∀ (bs : List Byte) (n : Nat), bs.length ≤ n →
    takeBytes n (bs.map .byte ++ .cut :: X) = (bs, .cut :: X) := by
  intro bs
  induction bs with
  | nil => intro n _; cases n <;> simp [takeBytes]
  | cons b bs ih =>
    intro n hn
    cases n with
    | zero => simp at hn
    | succ n => simp only [List.length_cons] at hn; simp [takeBytes, ih n (by omega)]

/-- A header line without interruptions: the payload is read next. -/
theorem aux_cn_head (env : ReadEnv) (f : Frame) (hL : Legal f) (ht : f.type ≠ .seq) (header : List Byte) (hh : headerOf f = some header)
    (hch : env.channelExists f.channel = true) (hsq : env.seqnoOk f.channel f.seqno f.size = true) (hs X : List Tok)
    (hd : octets hs = header) (he : .eof ∉ hs) (ha : .again ∉ hs) :
    getNext env .init (hs ++ X) =
      (match recv (f.size.toNat + 5) X with
       | (.eof, r) => (.shutdown, r)
       | (.again, r) => (.pending { ReadState.init with partialFrame := some (Frame.hdr f, [], f.size.toNat + 5) }, r)
       | (.data bs, r) =>
         if bs.length = f.size.toNat + 5 then (processBuffer (Frame.hdr f) bs .init, r)
         else (.pending { ReadState.init with partialFrame := some (Frame.hdr f, bs, f.size.toNat + 5 - bs.length) }, r)) := by
  obtain ⟨h0, e0, hlf, hnul⟩ := (headerOf_line f hL header hh).shape
  have hshort := (headerOf_line f hL header hh).short
  have hcr : LF ∉ h0 ++ [CR] := by
    simp only [List.mem_append, List.mem_singleton, not_or]
    exact ⟨hlf, by decide⟩
  have hlen : header.length = (h0 ++ [CR]).length + 1 := by rw [e0]; simp
  obtain ⟨cs, h1, h2⟩ := aux_cn_line X hs he ha (h0 ++ [CR]) hcr (by rw [hd, e0]) 98 (by omega) true []
  have h3 : readlineLoop (98 - (ReadState.init.pendingLine.getD []).length) true (ReadState.init.pendingLine.getD []) (hs ++ X) =
      (.complete header, cs ++ X) := by
    rw [e0]; exact h2
  unfold getNext
  simp only [show ReadState.init.partialFrame = none from rfl]
  rw [if_neg (by decide)]
  simp only [h3]
  simp only [ReadState.init]
  have hck := checkHeader_data env ⟨none, none, 0⟩ f hL ht header hh hch hsq
  rw [hck]
  have hsz := hL.size
  simp only [readPayload]
  have hsize : (Frame.hdr f).size = f.size := rfl
  rw [hsize, if_neg (by omega), if_neg (by omega), aux_cn_cuts _ _ _ h1]
  rfl

/-- A frame whose payload arrives in one piece. -/
theorem aux_cn_whole (env : ReadEnv) (f : Frame) (hL : Legal f) (ht : f.type ≠ .seq) (header : List Byte) (hh : headerOf f = some header)
    (hch : env.channelExists f.channel = true) (hsq : env.seqnoOk f.channel f.seqno f.size = true) (hs rest : List Tok)
    (hd : octets hs = header) (he : .eof ∉ hs) (ha : .again ∉ hs) :
    getNext env .init (hs ++ ((bodyOf f).map .byte ++ rest)) = (.frame f .init, rest) := by
  rw [aux_cn_head env f hL ht header hh hch hsq hs _ hd he ha]
  have hb := bodyOf_length f hL ht
  have hr : recv (f.size.toNat + 5) ((bodyOf f).map .byte ++ rest) = (.data (bodyOf f), rest) := by
    rw [← hb]
    have := aux_cn_bytes rest (bodyOf f)
    cases hbo : bodyOf f with
    | nil => rw [hbo] at hb; simp at hb
    | cons b bs =>
      rw [hbo] at this
      simp only [List.map_cons, List.cons_append, recv] at this ⊢
      rw [this]
  rw [hr]
  simp only [hb, if_true]
  rw [processBuffer_ok f hL ht]

/-- A frame whose payload is cut: it has to be read again. -/
theorem aux_cn_cut (env : ReadEnv) (f : Frame) (hL : Legal f) (ht : f.type ≠ .seq) (header : List Byte) (hh : headerOf f = some header)
    (hch : env.channelExists f.channel = true) (hsq : env.seqnoOk f.channel f.seqno f.size = true) (hs rest : List Tok)
    (hd : octets hs = header) (he : .eof ∉ hs) (ha : .again ∉ hs) (x y : List Byte) (hx : x ≠ []) (hy : y ≠ []) (hb : bodyOf f = x ++ y) :
    ∃ st, getNext env .init (hs ++ (x.map .byte ++ .cut :: rest)) = (.pending st, .cut :: rest) := by
  rw [aux_cn_head env f hL ht header hh hch hsq hs _ hd he ha]
  have hl := bodyOf_length f hL ht
  rw [hb, List.length_append] at hl
  have hy' : 0 < y.length := List.length_pos_iff.mpr hy
  have hr : recv (f.size.toNat + 5) (x.map .byte ++ .cut :: rest) = (.data x, .cut :: rest) := by
    have := aux_cn_short rest x (f.size.toNat + 5) (by omega)
    cases x with
    | nil => exact absurd rfl hx
    | cons b bs =>
      simp only [List.map_cons, List.cons_append, recv] at this ⊢
      rw [this]
  rw [hr]
  simp only
  rw [if_neg (by omega)]
  exact ⟨_, rfl⟩

theorem aux_cn_single (f : Frame) (hf : FirstReply ([f].map VFrame.ofWire)) : f.type ≠ .seq ∧ f.more = false := by
  have h1 := hf.kind (VFrame.ofWire f) (by simp)
  have h2 := hf.last (VFrame.ofWire f) (by simp)
  refine ⟨?_, h2⟩
  have : f.type = .rpy := h1.1
  rw [this]; decide

theorem aux_cn_new (n : Nat) (e : NewEnv) (left : Int) (hw : newWorks e left) :
    connNew n e = (match gxRun e.gx n (.init e.script left e.waits) with
        | none => none
        | some .outside => some .crash
        | some .failed => some (newReport e false false none)
        | some (.ok body _ _) => some (newReport e true true (some body))) := by
  obtain ⟨h1, h2, h3, sock, err, h4⟩ := hw
  simp only [connNew, h1, h2, h3, h4]
  rfl

/-- C93 is violated: without a connect timeout, greetings whose payload arrives in two pieces are refused. -/
theorem C93_split (e : NewEnv) (left : Int) (hw : newWorks e left) (hl : left ≤ 0) (f : Frame) (body : List Byte)
    (hg : GreetingsOf e [f] body) (header x y : List Byte) (hh : headerOf f = some header) (hx : x ≠ []) (hy : y ≠ []) (hb : bodyOf f = x ++ y)
    (rest : List Tok) (hs : e.script = header.map .byte ++ (x.map .byte ++ .cut :: (y.map .byte ++ rest))) (n : Nat) :
    connNew (n + 1) e = some (newReport e false false none) := by
  have hk := aux_cn_single f hg.first
  have hwin := hg.window f (by simp)
  obtain ⟨st, hst⟩ := aux_cn_cut e.gx.read f (hg.legal f (by simp)) hk.1 header hh hwin.1 hwin.2 (header.map .byte) (y.map .byte ++ rest)
    (by
      have : ∀ l : List Byte, octets (l.map .byte) = l := by
        intro l
        induction l with
        | nil => rfl
        | cons b l ih => simp [octets, ih]
      exact this header) (by simp) (by simp) x y hx hy hb
  rw [aux_cn_new _ e left hw]
  have : gxRun e.gx (n + 1) (.init e.script left e.waits) = some .failed := by
    simp only [gxRun, gxStep, GxState.init, hs, hst, gxNull]
    have : ¬ (0 < left) := by omega
    simp [this]
  rw [this]

theorem aux_cn_octets : ∀ l : List Byte, octets (l.map .byte) = l := by
  intro l
  induction l with
  | nil => rfl
  | cons b l ih => simp [octets, ih]

/-- A connection that is closed while a fragment is pending is read for ever. -/
theorem aux_cn_spin (e : GxEnv) (s : GxState) (h1 : s.isOk = false) (h2 : s.pending.isSome = true) : ∀ n, gxRun e n s = none := by
  intro n
  induction n with
  | zero => rfl
  | succ n ih =>
    have : gxStep e s = .go s := by simp [gxStep, gxNull, h1, h2]
    simp only [gxRun, this]
    exact ih

/-- C93 is violated: a peer that sends a first fragment of its greetings and closes the connection makes the call go on for ever, with any
timeout. -/
theorem C93_spin (e : NewEnv) (left : Int) (hw : newWorks e left) (f : Frame) (hL : Legal f) (ht : f.type ≠ .seq) (hm : f.more = true)
    (hwin : letsIn e.gx.read [f]) (hws : waitsReady 1 e.waits) (header : List Byte) (hh : headerOf f = some header)
    (hs : e.script = header.map .byte ++ ((bodyOf f).map .byte ++ [.eof])) (n : Nat) : connNew n e = none := by
  have hwf := hwin f (by simp)
  have hn := aux_cn_whole e.gx.read f hL ht header hh hwf.1 hwf.2 (header.map .byte) [.eof] (aux_cn_octets header) (by simp) (by simp)
  have hc : clientGreeting none (VFrame.ofWire f) = (.waiting, some (VFrame.ofWire f)) := by
    simp [clientGreeting, VFrame.ofWire, hm]
  have heof : getNext e.gx.read .init [.eof] = (.shutdown, [.eof]) := by
    simp [getNext, ReadState.init, readlineLoop]
  rw [aux_cn_new _ e left hw]
  obtain ⟨⟨r, l⟩, ws, hws'⟩ : ∃ w ws, e.waits = w :: ws := by
    cases h : e.waits with
    | nil => have := hws.1; rw [h] at this; simp at this
    | cons w ws => exact ⟨w, ws, rfl⟩
  obtain ⟨hr, hl⟩ := hws.2 (r, l) (by rw [hws']; simp)
  have : gxRun e.gx n (.init e.script left e.waits) = none := by
    match n with
    | 0 => rfl
    | 1 =>
      by_cases hp : 0 < left
      · have h1 : ¬ (r ≤ 0 ∨ l ≤ 0) := by simp only at hr hl; omega
        simp [gxRun, gxStep, GxState.init, hs, hn, hc, gxNull, hp, hws', h1]
      · simp [gxRun, gxStep, GxState.init, hs, hn, hc, gxNull, hp]
    | n + 2 =>
      by_cases hp : 0 < left
      · have h1 : ¬ (r ≤ 0 ∨ l ≤ 0) := by simp only at hr hl; omega
        have hl' : 0 < l := hl
        simp [gxRun, gxStep, GxState.init, hs, hn, hc, gxNull, hp, hws', h1, poll, heof]
        exact aux_cn_spin _ _ rfl rfl _
      · simp [gxRun, gxStep, GxState.init, hs, hn, hc, gxNull, hp, heof]
        exact aux_cn_spin _ _ rfl rfl _
  rw [this]

/-- C93 is violated: with a connect timeout below one second the greetings must have arrived before they are waited for. -/
theorem C93_subsecond (e : NewEnv) (h1 : e.started) (h2 : e.nameOk) (h3 : e.sendOk) (h4 : e.tcp.resolved) (h5 : e.tcp.socketOk)
    (h6 : e.tcp.limitOk) (h7 : e.tcp.sane) (ht : 0 < e.tcp.timeout) (ht' : e.tcp.timeout < 1000000) (hc : e.tcp.nonBlocking = .progress)
    (rest : List Tok) (hs : e.script = .again :: rest) (n : Nat) : connNew (n + 1) e = some (newReport e false false none) := by
  have hi : i32 e.tcp.timeout = e.tcp.timeout := by simp only [i32]; omega
  have hd : e.tcp.timeout.tdiv 1000000 = 0 := Int.tdiv_eq_zero_of_lt (by omega) ht'
  have htc : tcpConnect e.tcp = some ⟨true, .connecting, none, 0⟩ := by
    simp [tcpConnect, h4, h5, h6, h7, hi, ht, hd, hc]
  rw [aux_cn_new _ e 0 ⟨h1, h2, h3, _, _, htc⟩]
  have : gxRun e.gx (n + 1) (.init e.script 0 e.waits) = some .failed := by
    simp [gxRun, gxStep, GxState.init, hs, getNext, ReadState.init, readlineLoop, gxNull]
  rw [this]

/-! ### Greetings that are accepted -/

theorem aux_cn_isSome (p q : Option VFrame) (f : VFrame) (h : clientGreeting p f = (.waiting, q)) : q.isSome = true := by
  simp only [clientGreeting, greetingReply] at h
  grind

theorem aux_cn_wholes (e : GxEnv) (body : List Byte) (hv : e.parse body = true) (left : Int) (hl : left ≤ 0) (ws : List (Int × Int)) :
    ∀ (fs : List Frame) (script : List Tok), DeliversWhole fs script → (∀ f ∈ fs, Legal f ∧ f.type ≠ .seq) → letsIn e.read fs →
    ∀ (p : Option VFrame) (got : List Frame), greetingRun clientGreeting p (fs.map VFrame.ofWire) = (.accepted body, none, []) →
    ∃ n rest, gxRun e n ⟨.init, p, script, left, ws, true, got⟩ = some (.ok body (got ++ fs) rest) := by
  intro fs script hd
  induction hd with
  | nil rest => intro _ _ p got h; simp [greetingRun] at h
  | cons f fs hs rest header hh hd he ha hr ih =>
    intro hL hwin p got h
    have hwf := hwin f (by simp)
    have hn := aux_cn_whole e.read f (hL f (by simp)).1 (hL f (by simp)).2 header hh hwf.1 hwf.2 hs rest hd he ha
    simp only [List.map_cons, greetingRun] at h
    split at h
    · next q hq =>
      have hsome := aux_cn_isSome p q _ hq
      obtain ⟨n, rest', hrun⟩ := ih (fun g hg => hL g (by simp [hg])) (fun g hg => hwin g (by simp [hg])) q (got ++ [f]) h
      refine ⟨n + 1, rest', ?_⟩
      have hp : ¬ (0 < left) := by omega
      simp only [gxRun, gxStep, hn, hq, gxNull, hp, false_and, if_false, hsome, if_true]
      simpa using hrun
    · next r q hne hq =>
      simp only [Prod.mk.injEq, List.map_eq_nil_iff] at h
      obtain ⟨rfl, rfl, rfl⟩ := h
      refine ⟨1, rest, ?_⟩
      simp [gxRun, gxStep, hn, hq, hv]

theorem aux_cn_greet (e : NewEnv) (fs : List Frame) (body : List Byte) (hg : GreetingsOf e fs body) :
    (∀ f ∈ fs, Legal f ∧ f.type ≠ .seq) ∧ greetingRun clientGreeting none (fs.map VFrame.ofWire) = (.accepted body, none, []) := by
  have hk : ∀ f ∈ fs, Legal f ∧ f.type ≠ .seq := by
    intro f hf
    refine ⟨hg.legal f hf, ?_⟩
    have : f.type = .rpy := (hg.first.kind (VFrame.ofWire f) (List.mem_map_of_mem hf)).1
    rw [this]; decide
  refine ⟨hk, (C50_accepted _ ?_ hg.first body hg.content).1⟩
  intro v hv
  obtain ⟨f, hf, rfl⟩ := List.mem_map.mp hv
  obtain ⟨hL, ht⟩ := hk f hf
  exact ⟨rfl, hL.seqno, f.payload, rfl, (hL.data ht).2.2⟩

/-- Without a connect timeout, the connection is established if every payload of the greetings arrives in one piece. -/
theorem C93_whole_partial (e : NewEnv) (left : Int) (hw : newWorks e left) (hl : left ≤ 0) (fs : List Frame) (body : List Byte)
    (hg : GreetingsOf e fs body) (hd : DeliversWhole fs e.script) : ∃ n, connNew n e = some (newReport e true true (some body)) := by
  obtain ⟨hk, hr⟩ := aux_cn_greet e fs body hg
  obtain ⟨n, rest, hrun⟩ := aux_cn_wholes e.gx body hg.valid left hl e.waits fs e.script hd hk hg.window none [] hr
  refine ⟨n, ?_⟩
  rw [aux_cn_new _ e left hw]
  have : gxRun e.gx n (.init e.script left e.waits) = some (.ok body ([] ++ fs) rest) := hrun
  rw [this]

/-! ### With a timeout -/

def aux_cn_handle (s : GreetStep × Option VFrame) (f : Frame) : Option (GreetStep × Option VFrame) :=
  match s.1 with
  | .waiting =>
    match clientGreeting s.2 (VFrame.ofWire f) with
    | (.waiting, p) => some (.waiting, p)
    | (.accepted b, p) => some (.accepted b, p)
    | _ => none
  | _ => some s

theorem aux_cn_stays (env : GreetStep × Option VFrame → ReadEnv) (b : List Byte) (p : Option VFrame) : ∀ (n : Nat) (st : ReadState) (script : List Tok),
    (drive env aux_cn_handle n (.accepted b, p) st script).2.1 = (.accepted b, p) := by
  intro n
  induction n with
  | zero => intro st script; rfl
  | succ n ih =>
    intro st script
    simp only [drive]
    split
    · rfl
    · split
      · simp only [aux_cn_handle]
        exact ih _ _
      · exact ih _ _
      · rfl
      · rfl
      · rfl

theorem aux_cn_sim (e : GxEnv) (body : List Byte) (hv : e.parse body = true) : ∀ (n : Nat) (st : ReadState) (script : List Tok) (p : Option VFrame)
    (left : Int) (ws : List (Int × Int)) (got : List Frame), 0 < left → waitsReady n ws →
    (∃ q, (drive (fun _ => e.read) aux_cn_handle n (.waiting, p) st script).2.1 = (.accepted body, q)) →
    ∃ m got' rest, gxRun e m ⟨st, p, poll script, left, ws, true, got⟩ = some (.ok body got' rest) := by
  intro n
  induction n with
  | zero => intro st script p left ws got _ _ ⟨q, h⟩; simp [drive] at h
  | succ n ih =>
    intro st script p left ws got hl hws ⟨q, h⟩
    simp only [drive] at h
    split at h
    · simp at h
    · next t ts hpoll =>
      obtain ⟨⟨r, l⟩, ws', hws'⟩ : ∃ w ws', ws = w :: ws' := by
        cases hh : ws with
        | nil => have := hws.1; rw [hh] at this; simp at this
        | cons w ws' => exact ⟨w, ws', rfl⟩
      obtain ⟨hr, hl'⟩ := hws.2 (r, l) (by rw [hws']; simp)
      have hrl : ¬ (r ≤ 0 ∨ l ≤ 0) := by simp only at hr hl'; omega
      have hwr : waitsReady n ws' := by
        refine ⟨?_, fun w hw => hws.2 w (by rw [hws']; simp [hw])⟩
        have := hws.1; rw [hws'] at this; simp at this; omega
      rw [hpoll]
      cases hg : getNext e.read st (t :: ts) with
      | mk nx r' =>
        rw [hg] at h
        cases nx with
        | frame f st' =>
          simp only [aux_cn_handle] at h
          cases hc : clientGreeting p (VFrame.ofWire f) with
          | mk g p' =>
            rw [hc] at h
            cases g with
            | waiting =>
              simp only at h
              obtain ⟨m, got', rest, hm⟩ := ih st' r' p' l ws' (got ++ [f]) hl' hwr ⟨q, h⟩
              refine ⟨m + 1, got', rest, ?_⟩
              simp only [gxRun, gxStep, hg, hc, gxNull, hl, hws', hrl]
              simpa using hm
            | refused => simp at h
            | outside => simp at h
            | accepted b =>
              simp only at h
              have hs := aux_cn_stays (fun _ => e.read) b p' n st' r'
              have h' : (drive (fun _ => e.read) aux_cn_handle n (.accepted b, p') st' r').2.1 = (.accepted body, q) := h
              rw [hs] at h'
              cases h'
              exact ⟨1, got ++ [f], r', by simp [gxRun, gxStep, hg, hc, hv]⟩
        | pending st' =>
          simp only at h
          obtain ⟨m, got', rest, hm⟩ := ih st' r' p l ws' got hl' hwr ⟨q, h⟩
          refine ⟨m + 1, got', rest, ?_⟩
          simp only [gxRun, gxStep, hg, gxNull, hl, hws', hrl]
          simpa using hm
        | shutdown => simp at h
        | outsideLine => simp at h
        | outsideBuffer => simp at h

/-- The first look: the octets are there, or there are none yet. -/
theorem aux_cn_first (env : ReadEnv) : ∀ (X : List Tok), getNext env .init X = getNext env .init (poll X) ∨
    ∃ r, getNext env .init X = (.pending ⟨none, none, 1⟩, r) ∧ poll r = poll X := by
  intro X
  induction X with
  | nil => exact Or.inl rfl
  | cons t X ih =>
    cases t with
    | byte b => exact Or.inl rfl
    | eof => exact Or.inl rfl
    | again => exact Or.inr ⟨X, by simp [getNext, ReadState.init, readlineLoop], by simp [poll]⟩
    | cut =>
      have : getNext env .init (.cut :: X) = getNext env .init X := by simp [getNext, ReadState.init, readlineLoop]
      rw [this]
      simpa [poll] using ih

theorem aux_cn_accepts (e : GxEnv) (body : List Byte) : ∀ (fs : List Frame) (p : Option VFrame), letsIn e.read fs →
    greetingRun clientGreeting p (fs.map VFrame.ofWire) = (.accepted body, none, []) →
    Accepts (fun _ => e.read) aux_cn_handle (.waiting, p) fs (.accepted body, none) := by
  intro fs
  induction fs with
  | nil => intro p _ h; simp [greetingRun] at h
  | cons f fs ih =>
    intro p hwin h
    have hwf := hwin f (by simp)
    simp only [List.map_cons, greetingRun] at h
    split at h
    · next q hq =>
      exact ⟨hwf.1, fun _ => hwf.2, (.waiting, q), by simp [aux_cn_handle, hq], ih q (fun g hg => hwin g (by simp [hg])) h⟩
    · next r q hne hq =>
      simp only [Prod.mk.injEq, List.map_eq_nil_iff] at h
      obtain ⟨rfl, rfl, rfl⟩ := h
      exact ⟨hwf.1, fun _ => hwf.2, (.accepted body, none), by simp [aux_cn_handle, hq], rfl⟩

theorem aux_cn_slow (e : GxEnv) (body : List Byte) (fs : List Frame) (script : List Tok) (hd : DeliversSlowly fs script)
    (hL : ∀ f ∈ fs, Legal f ∧ f.type ≠ .seq) (hwin : letsIn e.read fs)
    (hr : greetingRun clientGreeting none (fs.map VFrame.ofWire) = (.accepted body, none, [])) (ops : Nat) (ho : ops ≤ 1) :
    ∃ q, (drive (fun _ => e.read) aux_cn_handle script.length (.waiting, none) ⟨none, none, ops⟩ script).2.1 = (.accepted body, q) := by
  obtain ⟨f, fs', lead, hs, bs, rest, header, rfl, rfl, hl, hhd, hoc, hb, he, hbo, hrest⟩ := hd
  obtain ⟨a1, a2, s1, a3, a4⟩ := aux_cn_accepts e body _ none hwin hr
  obtain ⟨l1, l2⟩ := hL f (by simp)
  have hS : ∀ g : Frame, g.type ≠ .seq → SeqOk g := fun g hg h => absurd h hg
  refine ⟨none, ?_⟩
  rw [List.append_assoc, List.append_assoc, drive_junk _ _ _ _ _ _ _ hl]
  obtain ⟨h0, e0, _, _⟩ := (headerOf_line f l1 header hhd).shape
  have hdr := drive_header (fun _ => e.read) aux_cn_handle (.waiting, none) s1 f l1 (hS f l2) header hhd a1 a2 a3 bs rest
    (by intro h; exact he (by simp [h])) hbo rest.length ((lead ++ (hs ++ (bs ++ rest))).length) hs (by intro h; exact he (by simp [h]))
    [] (by simpa using hoc) (by rw [hoc, e0]; simp) ops (by simp only [List.length_append]; omega)
  simp only [if_true] at hdr
  rcases hdr with ⟨n', hn', hdr⟩ | ⟨hbad, _⟩
  · have hi := drive_delivers (fun _ => e.read) aux_cn_handle fs' rest hrest (fun g hg => ⟨(hL g (by simp [hg])).1, hS g (hL g (by simp [hg])).2⟩)
      s1 (.accepted body, none) a4 n' hn'
    rw [hdr, hi]
    rfl
  · omega

/-- With a connect timeout, the connection is established however the greetings are cut on the way, if octets arrive while there is time left.
Missing: timeouts below one second (`C93_subsecond`), and header lines that are interrupted more than 24 times (see C04). -/
theorem C93_timed_partial (e : NewEnv) (left : Int) (hw : newWorks e left) (hl : 0 < left) (fs : List Frame) (body : List Byte)
    (hg : GreetingsOf e fs body) (hd : DeliversSlowly fs e.script) (hws : waitsReady (e.script.length + 1) e.waits) :
    ∃ n, connNew n e = some (newReport e true true (some body)) := by
  obtain ⟨hk, hr⟩ := aux_cn_greet e fs body hg
  have hsim : ∀ ops, ops ≤ 1 → ∀ (left : Int) (ws : List (Int × Int)), 0 < left → waitsReady e.script.length ws →
      ∃ m got' rest, gxRun e.gx m ⟨⟨none, none, ops⟩, none, poll e.script, left, ws, true, []⟩ = some (.ok body got' rest) :=
    fun ops ho left ws hl hws => aux_cn_sim e.gx body hg.valid _ _ _ _ _ _ _ hl hws (aux_cn_slow e.gx body fs e.script hd hk hg.window hr ops ho)
  have hmain : ∃ m got' rest, gxRun e.gx m (.init e.script left e.waits) = some (.ok body got' rest) := by
    rcases aux_cn_first e.gx.read e.script with h | ⟨r, h, h'⟩
    · obtain ⟨m, got', rest, hm⟩ := hsim 0 (by omega) left e.waits hl ⟨by have := hws.1; omega, hws.2⟩
      refine ⟨m, got', rest, ?_⟩
      cases m with
      | zero => simp [gxRun] at hm
      | succ m =>
        simp only [gxRun, gxStep, GxState.init] at hm ⊢
        have h2 : getNext e.gx.read ReadState.init e.script = getNext e.gx.read ⟨none, none, 0⟩ (poll e.script) := h
        rw [h2]
        exact hm
    · obtain ⟨⟨a, l⟩, ws, hws'⟩ : ∃ w ws, e.waits = w :: ws := by
        cases hh : e.waits with
        | nil => have := hws.1; rw [hh] at this; simp at this
        | cons w ws => exact ⟨w, ws, rfl⟩
      obtain ⟨hr1, hr2⟩ := hws.2 (a, l) (by rw [hws']; simp)
      have hal : ¬ (a ≤ 0 ∨ l ≤ 0) := by simp only at hr1 hr2; omega
      obtain ⟨m, got', rest, hm⟩ := hsim 1 (by omega) l ws hr2 ⟨by have := hws.1; rw [hws'] at this; simp at this; omega,
        fun w hw => hws.2 w (by rw [hws']; simp [hw])⟩
      refine ⟨m + 1, got', rest, ?_⟩
      simp only [gxRun, gxStep, GxState.init, h, gxNull, hl, hws', hal]
      rw [h']
      simpa using hm
  obtain ⟨m, got', rest, hm⟩ := hmain
  refine ⟨m, ?_⟩
  rw [aux_cn_new _ e left hw, hm]

/-! ### Going on for ever -/

theorem aux_cn_compose (e : GxEnv) : ∀ (n : Nat) (s t : GxState), gxSteps e n s = some t → ∀ m, gxRun e (n + m) s = gxRun e m t := by
  intro n
  induction n with
  | zero => intro s t h m; simp only [gxSteps, Option.some.injEq] at h; rw [h, Nat.zero_add]
  | succ n ih =>
    intro s t h m
    simp only [gxSteps] at h
    split at h
    · next u hu =>
      rw [show n + 1 + m = (n + m) + 1 by omega]
      simp only [gxRun, hu]
      exact ih u t h m
    · cases h

theorem aux_cn_mono (e : GxEnv) : ∀ (n : Nat) (s : GxState), (gxRun e n s).isSome = true → ∀ m, n ≤ m → (gxRun e m s).isSome = true := by
  intro n
  induction n with
  | zero => intro s h; simp [gxRun] at h
  | succ n ih =>
    intro s h m hm
    cases m with
    | zero => omega
    | succ m =>
      simp only [gxRun] at h ⊢
      cases hs : gxStep e s with
      | go t => rw [hs] at h; exact ih t h m (by omega)
      | stop r => rfl
      | wait => rw [hs] at h; simp at h

/-- With a connect timeout that is over some time, the call goes on for ever in exactly one case: the connection is closed while a fragment
of the greetings is pending. -/
theorem C93_hangs_iff (e : GxEnv) (script : List Tok) (waits : List (Int × Int)) (left : Int) (hl : 0 < left)
    (hf : ∃ w ∈ waits, w.1 ≤ 0 ∨ w.2 ≤ 0) :
    (∀ n, gxRun e n (.init script left waits) = none) ↔
      ∃ n s, gxSteps e n (.init script left waits) = some s ∧ s.isOk = false ∧ s.pending.isSome = true := by
  constructor
  · have gen : ∀ (ws : List (Int × Int)) (s : GxState), s.waits = ws → 0 < s.timeout → s.isOk = true → (∃ w ∈ ws, w.1 ≤ 0 ∨ w.2 ≤ 0) →
        (∀ n, gxRun e n s = none) → ∃ n t, gxSteps e n s = some t ∧ t.isOk = false ∧ t.pending.isSome = true := by
      intro ws
      induction ws with
      | nil => intro s _ _ _ ⟨w, hw, _⟩; simp at hw
      | cons w ws ih =>
        intro s hs ht hok hex hrun
        have hnull : ∀ u : GxState, u.waits = w :: ws → 0 < u.timeout → gxStep e s = gxNull u →
            ∃ n t, gxSteps e n s = some t ∧ t.isOk = false ∧ t.pending.isSome = true := by
          intro u hu hut hst
          have h1 := hrun 1
          simp only [gxRun, hst] at h1
          cases hg : gxNull u with
          | stop r => rw [hg] at h1; simp at h1
          | wait =>
            simp only [gxNull, hu] at hg
            grind
          | go t =>
            by_cases huok : u.isOk = true
            · have htt : t.waits = ws ∧ 0 < t.timeout ∧ t.isOk = true ∧ ¬ (w.1 ≤ 0 ∨ w.2 ≤ 0) := by
                simp only [gxNull, hu, hut, huok, and_self, if_true] at hg
                split at hg
                · cases hg
                · next hww => cases hg; exact ⟨rfl, by simp only; omega, rfl, hww⟩
              have hex' : ∃ w ∈ ws, w.1 ≤ 0 ∨ w.2 ≤ 0 := by
                obtain ⟨v, hv, hv'⟩ := hex
                simp only [List.mem_cons] at hv
                rcases hv with rfl | hv
                · exact absurd hv' htt.2.2.2
                · exact ⟨v, hv, hv'⟩
              obtain ⟨n, x, hx⟩ := ih t htt.1 htt.2.1 htt.2.2.1 hex' (by
                intro n
                have := hrun (n + 1)
                simp only [gxRun, hst, hg] at this
                exact this)
              exact ⟨n + 1, x, by simp only [gxSteps, hst, hg]; exact hx⟩
            · have : t = u ∧ u.pending.isSome = true := by
                simp only [gxNull, huok, and_false, Bool.false_eq_true, if_false] at hg
                split at hg
                · next hh => cases hg; exact ⟨rfl, hh⟩
                · cases hg
              exact ⟨1, t, by simp only [gxSteps, hst, hg], by rw [this.1]; simpa using huok, by rw [this.1]; exact this.2⟩
        have h1 := hrun 1
        simp only [gxRun] at h1
        have hst : gxStep e s = gxStep e s := rfl
        rw [show gxStep e s = gxStep e s from rfl] at h1
        unfold gxStep at hnull h1
        simp only [hok, Bool.true_eq_false, if_false] at hnull h1
        split at hnull
        · next f st r hr =>
          split at hnull
          · exact (by refine hnull _ ?_ ?_ rfl; exact hs; exact ht)
          · exact (by refine hnull _ ?_ ?_ rfl; exact hs; exact ht)
          · next hc => simp [hr, hc] at h1
          · next hc => simp [hr, hc] at h1
        · exact (by refine hnull _ ?_ ?_ rfl; exact hs; exact ht)
        · exact (by refine hnull _ ?_ ?_ rfl; exact hs; exact ht)
        · next hr => simp [hr] at h1
        · next hr => simp [hr] at h1
    intro h
    exact gen waits _ rfl hl rfl hf h
  · rintro ⟨n, s, hs, h1, h2⟩ m
    have h := aux_cn_compose e n _ s hs m
    rw [aux_cn_spin e s h1 h2] at h
    cases hm : gxRun e m (.init script left waits) with
    | none => rfl
    | some r =>
      have := aux_cn_mono e m _ (by rw [hm]; rfl) (n + m) (by omega)
      rw [h] at this
      cases this

/-! ### The property -/

/-- The whole of C93: the caller is told; as working, only with a socket and greetings; a connection that does not work has no socket left;
the greetings of a peer that arrive in time are accepted; a peer that closes the connection ends the call. -/
def C93_statement : Prop :=
  ∀ e : NewEnv, newSane e →
    (∀ n out, connNew n e = some out → ∃ ok told returned g, out = .done told returned ok g ∧ newTold e ok told returned ∧
      (ok = true → ∃ (body : List Byte) (fs : List Frame), g = some body ∧ e.gx.parse body = true ∧ FirstReply (fs.map VFrame.ofWire) ∧
        beepContent (fs.map VFrame.ofWire) body)) ∧
    (∀ left fs body, newWorks e left → GreetingsOf e fs body → Delivers fs e.script → waitsReady (e.script.length + 1) e.waits →
      ∃ n, connNew n e = some (newReport e true true (some body))) ∧
    (tcpConnect e.tcp ≠ none → .eof ∈ e.script → waitsReady (e.script.length + 1) e.waits → ∃ n, connNew n e ≠ none)

/-- A host that answers at once, and what it sends. -/
def aux_cn_env (timeout : Int) (script : List Tok) (waits : List (Int × Int)) : NewEnv :=
  { started := true, threaded := true, tcp := ⟨true, true, true, true, timeout, .done, .progress, fun _ => 7, false, [.ready]⟩
    nameOk := true, sendOk := true, gx := ⟨⟨fun c => c == 0, fun _ _ _ => true⟩, fun b => b == lit "<greeting />"⟩
    script := script, waits := waits }

def aux_cn_pay : List Byte := headerBlock [(lit "Content-Type", lit "application/beep+xml")] ++ lit "<greeting />"

def aux_cn_frame (more : Bool) : Frame := ⟨.rpy, 0, 0, more, 0, aux_cn_pay.length, 0, aux_cn_pay⟩

def aux_cn_hd (more : Bool) : List Byte := (headerOf (aux_cn_frame more)).getD []

theorem aux_cn_hd_ok (more : Bool) : headerOf (aux_cn_frame more) = some (aux_cn_hd more) := by
  cases more <;> decide +kernel

theorem aux_cn_frame_legal (more : Bool) : Legal (aux_cn_frame more) := by
  refine ⟨by simp [aux_cn_frame], by simp [aux_cn_frame], ?_, ?_, by simp [aux_cn_frame], by simp [aux_cn_frame], by simp [aux_cn_frame]⟩
  · cases more <;> decide +kernel
  · intro _; simp [aux_cn_frame]

theorem aux_cn_env_works (script : List Tok) (waits : List (Int × Int)) : newWorks (aux_cn_env 0 script waits) 0 ∧
    newWorks (aux_cn_env 60000000 script waits) 60 := by
  constructor
  · exact ⟨rfl, rfl, rfl, .connected, none, by simp [tcpConnect, aux_cn_env, i32]⟩
  · refine ⟨rfl, rfl, rfl, .connected, none, ?_⟩
    have hd : (60000000 : Int).tdiv 1000000 = 60 := rfl
    have hi : i32 60000000 = 60000000 := rfl
    simp [tcpConnect, aux_cn_env, hi, hd, cwWait, cwLoop, cwRound, cwFinish]

theorem aux_cn_env_greet (timeout : Int) (script : List Tok) (waits : List (Int × Int)) :
    GreetingsOf (aux_cn_env timeout script waits) [aux_cn_frame false] (lit "<greeting />") where
  legal := by intro f hf; simp only [List.mem_singleton] at hf; subst hf; exact aux_cn_frame_legal false
  first := by
    refine ⟨by simp, by decide +kernel, by decide +kernel, ?_, by simp, by simp [aux_cn_frame, VFrame.ofWire]⟩
    simp only [List.map_cons, List.map_nil, consecutive, and_true]
    rfl
  content := by decide +kernel
  window := by intro f hf; simp only [List.mem_singleton] at hf; subst hf; exact ⟨rfl, rfl⟩
  valid := by simp [aux_cn_env]

theorem C93_statement_false : ¬ C93_statement := by
  intro h
  obtain ⟨h1, _, _⟩ := h { aux_cn_env 0 [] [] with nameOk := false } (by intro _; simp [aux_cn_env])
  obtain ⟨_, _, _, sock, ht⟩ := (aux_cn_env_works [] []).1
  obtain ⟨err, ht⟩ := ht
  obtain ⟨ok, told, returned, g, he, hn, _⟩ := h1 1 _ (C93_unnamed 1 _ _ rfl rfl ht rfl)
  cases he
  simp [newTold, aux_cn_env] at hn

-- C93_whole_partial, C93_ok, C93_told_partial: the greetings arrive, with a cut in the header line
example : ∃ e, newWorks e 0 ∧ GreetingsOf e [aux_cn_frame false] (lit "<greeting />") ∧ DeliversWhole [aux_cn_frame false] e.script ∧ newSane e := by
  refine ⟨aux_cn_env 0 ((.cut :: (aux_cn_hd false).map .byte) ++ ((bodyOf (aux_cn_frame false)).map .byte ++ [])) [],
    (aux_cn_env_works _ _).1, aux_cn_env_greet _ _ _, ?_, ?_⟩
  · exact .cons _ _ _ _ _ (aux_cn_hd_ok false) (by simp [octets, aux_cn_octets]) (by simp) (by simp) (.nil _)
  · intro _; simp [aux_cn_env]

-- C93_timed_partial: the payload is cut as well
example : ∃ e, newWorks e 60 ∧ GreetingsOf e [aux_cn_frame false] (lit "<greeting />") ∧ DeliversSlowly [aux_cn_frame false] e.script ∧
    waitsReady (e.script.length + 1) e.waits := by
  have hsplit : ∀ l : List Byte, octets ((l.take 5).map .byte ++ .again :: (l.drop 5).map .byte) = l := by
    intro l
    have : ∀ (a : List Byte) (t : List Tok), octets (a.map .byte ++ t) = a ++ octets t := by
      intro a t; induction a with
      | nil => rfl
      | cons x a ih => simp [octets, ih]
    rw [this]; simp only [octets, aux_cn_octets, List.take_append_drop]
  have hblocks : ∀ l : List Byte, blocks ((l.take 5).map .byte ++ .again :: (l.drop 5).map .byte) ≤ 24 := by
    intro l
    have : ∀ (a : List Byte), blocks (a.map Tok.byte) = 0 := by
      intro a; induction a with
      | nil => rfl
      | cons x a ih => simpa [blocks] using ih
    have h2 : ∀ (a : List Byte) (t : List Tok), blocks (a.map .byte ++ t) = blocks t := by
      intro a t; induction a with
      | nil => rfl
      | cons x a ih => simpa [blocks] using ih
    rw [h2]
    have := this (l.drop 5)
    simp only [blocks] at this ⊢
    omega
  let script : List Tok := [.cut] ++ (((aux_cn_hd false).take 5).map .byte ++ .again :: ((aux_cn_hd false).drop 5).map .byte) ++
    (((bodyOf (aux_cn_frame false)).take 5).map .byte ++ .again :: ((bodyOf (aux_cn_frame false)).drop 5).map .byte) ++ []
  refine ⟨aux_cn_env 60000000 script (List.replicate (script.length + 1) (1, 60)),
    (aux_cn_env_works _ _).2, aux_cn_env_greet _ _ _, ⟨_, _, _, _, _, _, _, rfl, rfl, by simp, aux_cn_hd_ok false, hsplit _, hblocks _,
      (by simp [-List.map_take, -List.map_drop]), hsplit _, .nil _ (by simp)⟩, ?_⟩
  · simp only [waitsReady, aux_cn_env]
    exact ⟨by simp, by intro w hw; rw [List.eq_of_mem_replicate hw]; simp⟩

-- C93_split
example : ∃ e x y, newWorks e 0 ∧ GreetingsOf e [aux_cn_frame false] (lit "<greeting />") ∧ x ≠ [] ∧ y ≠ [] ∧
    bodyOf (aux_cn_frame false) = x ++ y ∧ headerOf (aux_cn_frame false) = some (aux_cn_hd false) ∧
    e.script = (aux_cn_hd false).map .byte ++ (x.map .byte ++ .cut :: (y.map .byte ++ [])) := by
  refine ⟨aux_cn_env 0 _ [], (bodyOf (aux_cn_frame false)).take 5, (bodyOf (aux_cn_frame false)).drop 5, (aux_cn_env_works _ _).1,
    aux_cn_env_greet _ _ _, by decide +kernel, by decide +kernel, (List.take_append_drop _ _).symm, aux_cn_hd_ok false, rfl⟩

-- C93_spin
example : ∃ e, newWorks e 60 ∧ Legal (aux_cn_frame true) ∧ (aux_cn_frame true).more = true ∧ letsIn e.gx.read [aux_cn_frame true] ∧
    waitsReady 1 e.waits ∧ e.script = (aux_cn_hd true).map .byte ++ ((bodyOf (aux_cn_frame true)).map .byte ++ [.eof]) := by
  refine ⟨aux_cn_env 60000000 _ [(1, 60)], (aux_cn_env_works _ _).2, aux_cn_frame_legal true, rfl, ?_, ⟨by simp [aux_cn_env], by simp [aux_cn_env]⟩, rfl⟩
  intro f hf; simp only [List.mem_singleton] at hf; subst hf; exact ⟨rfl, rfl⟩

-- C93_subsecond
example : ∃ e : NewEnv, e.started ∧ e.nameOk ∧ e.sendOk ∧ e.tcp.resolved ∧ e.tcp.socketOk ∧ e.tcp.limitOk ∧ e.tcp.sane ∧
    e.tcp.timeout = 500000 ∧ e.tcp.nonBlocking = .progress ∧ e.script = [.again] :=
  ⟨aux_cn_env 500000 [.again] [], rfl, rfl, rfl, rfl, rfl, rfl, rfl, rfl, rfl, rfl⟩

-- C93_hangs_iff
example : (0 : Int) < 60 ∧ ∃ w ∈ [((1 : Int), (58 : Int)), (-2, 0)], w.1 ≤ 0 ∨ w.2 ≤ 0 := by
  refine ⟨by decide, (-2, 0), by simp, by simp⟩

-- C93_unnamed
example : ∃ (e : NewEnv) (r : TcpResult), e.started = true ∧ e.nameOk = false ∧ tcpConnect e.tcp = some r ∧ r.ok = true := by
  obtain ⟨_, _, _, sock, err, h⟩ := (aux_cn_env_works [] []).1
  exact ⟨{ aux_cn_env 0 [] [] with nameOk := false }, _, rfl, rfl, h, rfl⟩

end Verif.Props
