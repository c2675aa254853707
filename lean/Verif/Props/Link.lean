import Verif.Proof.LinkRun
import Verif.Props.Mime
/-!
# C45: two endpoints on a byte stream

`Link.run ch .init ops` is a history of a channel between two programs that use this library: what both applications
do, the visits of both sequencers and, for both readers, how many octets the network has delivered each time.
-/
namespace Verif.Props
open Verif.Model Verif.Spec Verif.Proof

/-- The property: whatever the history, nobody shuts the connection down, what was received is a prefix of what was
sent, and all of it once nothing can move. -/
def C45_statement : Prop :=
  ∀ (ch : Nat), ch < 2147483648 → ∀ (ops : List (Bool × LinkOp)), contentsFit ops →
    let l := Link.run ch .init ops
    l.a.chan.shut = false ∧ l.b.chan.shut = false ∧
    l.b.got.map seenAs <+: l.a.sent ∧ l.a.got.map seenAs <+: l.b.sent ∧
    (atRest ch l → l.b.got.map seenAs = l.a.sent ∧ l.a.got.map seenAs = l.b.sent)

/-- What a history has to satisfy for the theorems below: contents with at least one octet and less than 2^31 - 1, at
most 2^31 messages from each side, windows only enlarged (`GrowEarly`, see C11), no header line received in more than
26 pieces (`patient`, see C04), and no SEQ frame with the two numbers the parser takes for errors (see C03), for which
it is enough that neither side sends 2^32 - 2 octets. -/
structure LinkHistory (ch : Nat) (ops : List (Bool × LinkOp)) : Prop where
  channel : ch < 2147483648
  fit : contentsFit ops
  many : (askedBy true ops).length ≤ 2147483648 ∧ (askedBy false ops).length ≤ 2147483648
  windows : GrowEarly 0 4096 (direction true ops) ∧ GrowEarly 0 4096 (direction false ops)
  pieces : patient ch .init 0 0 ops = true
  acks : acksReadable (Link.run ch .init ops) ∨ (octetsAsked true ops < 4294967294 ∧ octetsAsked false ops < 4294967294)

theorem aux_lk_run {ch ops} (h : LinkHistory ch ops) :
    (Link.run ch .init ops).a.sent.map lkKind = asksToSend ch true .init ops ∧
    (Link.run ch .init ops).b.sent.map lkKind = asksToSend ch false .init ops ∧
    ∃ fs gs, LinkInv ch (Link.run ch .init ops) (lkCounts ch .init 0 0 ops).1 (lkCounts ch .init 0 0 ops).2 fs gs [] []
      (octetsAsked true ops) (octetsAsked false ops) ∧
      lkMsgs (Link.run ch .init ops).a.sent ≤ 2147483648 ∧ lkMsgs (Link.run ch .init ops).b.sent ≤ 2147483648 := by
  have hi := LinkInv.init ch _ _ h.windows.1 h.windows.2
  rw [lk_octets, lk_octets] at hi
  have hm := h.many
  obtain ⟨r1, r2, fs, gs, r3, r4, r5, _⟩ := lk_run h.channel ops hi h.fit (by show 0 + _ ≤ _; omega) (by show 0 + _ ≤ _; omega) h.pieces h.acks
  exact ⟨r1, r2, fs, gs, r3, r4, r5⟩

/-- **C45**, safety and completeness at rest. Missing from the full statement: the restrictions of `LinkHistory`.
Nobody shuts the connection down. What each application asked to send was accepted, in that order, messages and
replies numbered from 0. What the other application got (kind, number and content of complete messages) is a prefix of
it, and all of it when no thread of the library can do anything. -/
theorem C45_delivery_partial (ch : Nat) (ops : List (Bool × LinkOp)) (h : LinkHistory ch ops) :
    let l := Link.run ch .init ops
    l.a.chan.shut = false ∧ l.b.chan.shut = false ∧
    l.a.sent.map (fun x => (x.1, x.2.2)) = asksToSend ch true .init ops ∧ numbersInOrder 0 0 l.a.sent ∧
    l.b.sent.map (fun x => (x.1, x.2.2)) = asksToSend ch false .init ops ∧ numbersInOrder 0 0 l.b.sent ∧
    l.b.got.map seenAs <+: l.a.sent ∧ l.a.got.map seenAs <+: l.b.sent ∧
    (∀ d ∈ l.a.got ++ l.b.got, d.more = false) ∧
    (atRest ch l → l.b.got.map seenAs = l.a.sent ∧ l.a.got.map seenAs = l.b.sent) := by
  obtain ⟨r1, r2, fs, gs, r3, _, _⟩ := aux_lk_run h
  obtain ⟨rest, acc, sA⟩ := r3.sideA
  obtain ⟨rest2, acc2, sB⟩ := r3.sideB
  refine ⟨r3.selfA.shut, r3.selfB.shut, r1, sA.order, r2, sB.order, ⟨rest, sA.split.symm⟩, ⟨rest2, sB.split.symm⟩, ?_,
    fun hr => lk_rest h.channel r3 hr h.acks⟩
  intro d hd
  rcases List.mem_append.mp hd with hd | hd
  · exact (sB.whole d hd).1
  · exact (sA.whole d hd).1

/-- **C45**, termination: after any history the threads of the library, whatever they do in whatever order, can take
only a bounded number of steps that do something. (Same restrictions; `more` has no step of the applications.) -/
theorem C45_finite_partial (ch : Nat) (ops : List (Bool × LinkOp)) (h : LinkHistory ch ops) :
    ∃ N, ∀ more, allMove ch (Link.run ch .init ops) more → LinkHistory ch (ops ++ more) → more.length ≤ N := by
  obtain ⟨r1, r2, fs, gs, r3, r4, r5⟩ := aux_lk_run h
  refine ⟨(lkMeasure (Link.run ch .init ops) fs gs).toNat, ?_⟩
  intro more hm h2
  have hlib : ∀ (more : List (Bool × LinkOp)) (l : Link), allMove ch l more →
      (∀ t, direction t more = []) ∧ (∀ t, askedBy t more = []) ∧ contentsFit more ∧ (∀ t ops, octetsAsked t (ops ++ more) = octetsAsked t ops) := by
    intro more
    induction more with
    | nil => intro l _; exact ⟨fun _ => rfl, fun _ => rfl, trivial, fun t ops => by rw [List.append_nil]⟩
    | cons x more ih =>
      intro l hx
      obtain ⟨s, op⟩ := x
      obtain ⟨a, _, b⟩ := hx
      obtain ⟨i1, i2, i3, i4⟩ := ih _ b
      have e : ∀ t ops, octetsAsked t (ops ++ (s, op) :: more) = octetsAsked t (ops ++ more) := by
        intro t ops
        induction ops with
        | nil => cases op <;> first | rfl | cases a
        | cons y ops ih2 =>
          obtain ⟨s2, op2⟩ := y
          cases op2 <;> simp only [List.cons_append, octetsAsked, ih2]
      refine ⟨fun t => ?_, fun t => ?_, ?_, fun t ops => by rw [e, i4]⟩
      · cases op <;> first | exact i1 t | cases a
      · cases op <;> first | exact i2 t | cases a
      · cases op <;> first | exact i3 | cases a
  obtain ⟨d1, d2, d3, d4⟩ := hlib more _ hm
  have hp := h2.pieces
  rw [lk_patient_append, Bool.and_eq_true] at hp
  have hk := h2.acks
  rw [lk_run_append, d4, d4] at hk
  obtain ⟨_, _, fs', gs', i3, _, _, i6⟩ := lk_run h.channel more (NA := octetsAsked true ops) (NB := octetsAsked false ops) (fs := fs) (gs := gs)
    (by rw [d1, d1]; exact r3) d3 (by rw [d2]; exact r4) (by rw [d2]; exact r5) hp.2 hk
  have := i6 hm
  have := lk_measure_nonneg i3
  omega

/-- **C45**, progress: after any history the threads of the library can bring everything to the other side. (Same
restrictions, and less than 2^32 - 2 octets from each side.) Together with `C45_finite_partial` and
`C45_delivery_partial`: as long as they go on doing what they can, they do. -/
theorem C45_rest_reachable_partial (ch : Nat) (ops : List (Bool × LinkOp)) (h : LinkHistory ch ops)
    (hs : octetsAsked true ops < 4294967294 ∧ octetsAsked false ops < 4294967294) :
    ∃ more, (∀ x ∈ more, ofLibrary x.2 = true) ∧ patient ch .init 0 0 (ops ++ more) = true ∧
      atRest ch (Link.run ch .init (ops ++ more)) ∧
      (Link.run ch .init (ops ++ more)).b.got.map (fun d => (d.type, d.content)) = asksToSend ch true .init ops ∧
      (Link.run ch .init (ops ++ more)).a.got.map (fun d => (d.type, d.content)) = asksToSend ch false .init ops := by
  obtain ⟨r1, r2, fs, gs, r3, r4, r5⟩ := aux_lk_run h
  obtain ⟨more, m1, m2, m3, m4⟩ := lk_reach_rest h.channel hs ((lkMeasure (Link.run ch .init ops) fs gs).toNat + 1) r3 r4 r5 (by omega)
  have hlib : ∀ (more : List (Bool × LinkOp)), (∀ x ∈ more, ofLibrary x.2 = true) →
      (∀ t, direction t more = []) ∧ (∀ t, askedBy t more = []) ∧ contentsFit more ∧ (∀ t l, asksToSend ch t l more = []) := by
    intro more
    induction more with
    | nil => intro _; exact ⟨fun _ => rfl, fun _ => rfl, trivial, fun _ _ => rfl⟩
    | cons x more ih =>
      intro hx
      obtain ⟨s, op⟩ := x
      have a := hx _ List.mem_cons_self
      obtain ⟨i1, i2, i3, i4⟩ := ih (fun y hy => hx y (List.mem_cons_of_mem _ hy))
      refine ⟨fun t => ?_, fun t => ?_, ?_, fun t l => ?_⟩
      · cases op <;> first | exact i1 t | cases a
      · cases op <;> first | exact i2 t | cases a
      · cases op <;> first | exact i3 | cases a
      · cases op <;> first | (cases a; done) | simp [asksToSend, asksNow, i4]
  obtain ⟨d1, d2, d3, d4⟩ := hlib more m4
  obtain ⟨s1, s2, fs', gs', i3, _, _, _⟩ := lk_run h.channel more (NA := octetsAsked true ops) (NB := octetsAsked false ops) (fs := fs) (gs := gs)
    (by rw [d1, d1]; exact r3) d3 (by rw [d2]; exact r4) (by rw [d2]; exact r5) m2 (.inr hs)
  have hr := lk_rest h.channel i3 m3 (.inr hs)
  rw [d4, List.append_nil] at s1 s2
  refine ⟨more, m4, ?_, ?_, ?_, ?_⟩
  · rw [lk_patient_append, Bool.and_eq_true]; exact ⟨h.pieces, m2⟩
  · rw [lk_run_append]; exact m3
  · rw [lk_run_append, ← r1, ← s1, ← hr.1, List.map_map]; rfl
  · rw [lk_run_append, ← r2, ← s2, ← hr.2, List.map_map]; rfl

/-- **C45**, what the application gets to see: if the content sent was a message preceded by the headers the library
writes, `vortex_frame_get_payload` gives the message, whether or not it travelled in several frames. -/
theorem C45_payload_partial (ch : Nat) (ops : List (Bool × LinkOp)) (h : LinkHistory ch ops)
    (d : Delivery) (hd : d ∈ (Link.run ch .init ops).a.got ++ (Link.run ch .init ops).b.got)
    (type : List Byte) (hv : HeaderValue type) (message : List Byte) (hc : mimeContent ⟨true, some type, none⟩ message = some d.content) :
    d.body = some message := by
  obtain ⟨r1, r2, fs, gs, r3, _, _⟩ := aux_lk_run h
  obtain ⟨rest, acc, sA⟩ := r3.sideA
  obtain ⟨rest2, acc2, sB⟩ := r3.sideB
  have hw : d.body = mimeBody wireTail d.content ∨ d.body = mimeBody builtTail d.content := by
    rcases List.mem_append.mp hd with hd | hd
    · exact (sB.whole d hd).2
    · exact (sA.whole d hd).2
  obtain ⟨content, e1, e2, e3⟩ := C21_receiver_sees_message type hv message none (.inl rfl)
  rw [hc] at e1
  injection e1 with e1
  rw [← e1] at e2 e3
  rcases hw with hw | hw
  · rw [hw, e2]
  · rw [hw, e3]

/-! ### A history with all of it: messages both ways, a message larger than the window, a reply, an error reply, larger
windows, octets read in pieces. -/

def exampleBody (n : Nat) : List Byte := List.replicate n 65

theorem aux_lk_body (n : Nat) (h : n < 2147483646) : exampleBody (n + 1) ≠ [] ∧ (exampleBody (n + 1)).length < 2147483647 := by
  unfold exampleBody
  refine ⟨by simp [List.replicate_succ], ?_⟩
  rw [List.length_replicate]; omega

def exampleLink : List (Bool × LinkOp) :=
  [(true, .send (lit "hello")), (false, .send (lit "you")), (false, .setWindow 8192), (true, .round), (false, .read 3),
   (true, .send (exampleBody 5000)), (false, .read 20), (false, .read 9), (false, .reply false (lit "fine")),
   (true, .round), (true, .round), (false, .read 4000), (false, .read 9000), (false, .round), (true, .read 7), (true, .read 900),
   (false, .round), (true, .read 30), (true, .read 900), (true, .read 900), (true, .reply true (lit "no")),
   (true, .round), (false, .read 9000), (false, .read 9000), (true, .round), (false, .read 9000), (false, .read 9000)]

theorem aux_lk_example : LinkHistory 1 exampleLink where
  channel := by decide
  fit := by
    have h5 := aux_lk_body 4999 (by decide)
    exact ⟨by decide, by decide, by decide, by decide, by decide, h5.1, h5.2, by decide, by decide, by decide, by decide, trivial⟩
  many := by decide
  windows := ⟨by simp [exampleLink, direction, GrowEarly]; decide, by simp [exampleLink, direction, GrowEarly]⟩
  pieces := by decide +kernel
  acks := .inr (by decide +kernel)

example : ((Link.run 1 .init exampleLink).b.got.map seenAs).map (fun d => (d.1, d.2.1, d.2.2.length)) =
    [(.msg, 0, 5), (.msg, 1, 5000), (.err, 0, 2)] ∧
    (Link.run 1 .init exampleLink).a.got.map seenAs = [(.msg, 0, lit "you"), (.rpy, 0, lit "fine")] := by
  decide +kernel

example : (Link.run 1 .init exampleLink).a.chan.shut = false ∧ (Link.run 1 .init exampleLink).b.chan.shut = false :=
  have h := C45_delivery_partial 1 exampleLink aux_lk_example
  ⟨h.1, h.2.1⟩

example : octetsAsked true exampleLink < 4294967294 ∧ octetsAsked false exampleLink < 4294967294 := by decide +kernel

/-- One message with headers, sent and read in two pieces. -/
def typedLink : List (Bool × LinkOp) :=
  [(true, .send (lit "Content-Type: application/xml\r\n\r\nhi")), (true, .round), (false, .read 30), (false, .read 900)]

theorem aux_lk_typed : LinkHistory 1 typedLink where
  channel := by decide
  fit := ⟨by decide, by decide, trivial⟩
  many := by decide
  windows := ⟨by simp [typedLink, direction, GrowEarly], by simp [typedLink, direction, GrowEarly]⟩
  pieces := by decide +kernel
  acks := .inr (by decide +kernel)

example : ∃ d ∈ (Link.run 1 .init typedLink).b.got,
    mimeContent ⟨true, some (lit "application/xml"), none⟩ (lit "hi") = some d.content ∧ d.body = some (lit "hi") := by
  decide +kernel

example : allMove 1 (Link.run 1 .init (typedLink.take 2)) (typedLink.drop 2) ∧ LinkHistory 1 (typedLink.take 2) := by
  refine ⟨⟨rfl, ?_, rfl, ?_, trivial⟩, ⟨by decide, ⟨by decide, by decide, trivial⟩, by decide, ?_, by decide +kernel, .inr (by decide +kernel)⟩⟩
  · intro h
    have := congrArg (fun l => l.ab.length) h
    revert this
    decide +kernel
  · intro h
    have := congrArg (fun l => l.b.got.length) h
    revert this
    decide +kernel
  · exact ⟨by simp [typedLink, direction, GrowEarly], by simp [typedLink, direction, GrowEarly]⟩

/-! ### The full statement is false -/

/-- A message on channel 2147483647, whose header line comes octet by octet: 27 octets. -/
def slowHeader : List (Bool × LinkOp) :=
  [(true, .send (exampleBody 1000)), (true, .round)] ++ List.replicate 26 (false, .read 1)

/-- The receiver shuts the connection down. -/
theorem C45_slow_header : (Link.run 2147483647 .init slowHeader).b.chan.shut = true := by decide +kernel

theorem C45_statement_false : ¬ C45_statement := by
  intro h
  have := (h 2147483647 (by decide) slowHeader (by
    have h5 := aux_lk_body 999 (by decide)
    exact ⟨h5.1, h5.2, trivial⟩)).2.1
  have e := C45_slow_header
  rw [show ((2147483647 : Nat) : Int) = 2147483647 from rfl] at this
  rw [e] at this
  cases this

end Verif.Props
