import Verif.Proof.LinkManyRun
import Verif.Props.Link
/-!
# C45 with several channels

`ManyLink.run chs .init ops` is a history of a connection with the channels `chs` between two programs that use this
library. All channels share the octets of the connection, the reader with its partly read frame, the buffer of the
sequencer, and the fate of the connection.
-/
namespace Verif.Props
open Verif.Model Verif.Spec Verif.Proof

/-- What a history has to satisfy for the theorems below: what `LinkHistory` demands, for each channel; header lines
received in pieces are counted for the connection. -/
structure ManyHistory (chs : List Nat) (ops : List (Bool × ManyOp)) : Prop where
  channels : ∀ c ∈ chs, c < 2147483648
  fit : ∀ c ∈ chs, contentsFit (onChannel c ops)
  many : ∀ c ∈ chs, (askedBy true (onChannel c ops)).length ≤ 2147483648 ∧ (askedBy false (onChannel c ops)).length ≤ 2147483648
  windows : ∀ c ∈ chs, GrowEarly 0 4096 (direction true (onChannel c ops)) ∧ GrowEarly 0 4096 (direction false (onChannel c ops))
  pieces : manyPatient chs .init 0 0 ops = true
  acks : ∀ c ∈ chs, manyAcksReadable (ManyLink.run chs .init ops) c ∨
    (octetsAsked true (onChannel c ops) < 4294967294 ∧ octetsAsked false (onChannel c ops) < 4294967294)

theorem aux_mk_run {chs ops} (h : ManyHistory chs ops) :
    (∀ c ∈ chs, ((ManyLink.run chs .init ops).a.chans c).sent.map lkKind = manyAsks chs c true .init ops ∧
      ((ManyLink.run chs .init ops).b.chans c).sent.map lkKind = manyAsks chs c false .init ops) ∧
    ∃ FS GS, ManyInv chs (ManyLink.run chs .init ops) (mkCounts chs .init 0 0 ops).1 (mkCounts chs .init 0 0 ops).2 FS GS (fun _ => []) (fun _ => [])
      (fun c => octetsAsked true (onChannel c ops)) (fun c => octetsAsked false (onChannel c ops)) ∧
      ∀ c ∈ chs, lkMsgs ((ManyLink.run chs .init ops).a.chans c).sent ≤ 2147483648 ∧ lkMsgs ((ManyLink.run chs .init ops).b.chans c).sent ≤ 2147483648 := by
  have hi := ManyInv.init chs (fun c => direction true (onChannel c ops)) (fun c => direction false (onChannel c ops))
    (fun c hc => (h.windows c hc).1) (fun c hc => (h.windows c hc).2)
  simp only [lk_octets] at hi
  obtain ⟨r1, FS, GS, r3, r4, _⟩ := mk_run h.channels ops hi h.fit
    (fun c hc => by have := h.many c hc; exact ⟨by show 0 + _ ≤ _; omega, by show 0 + _ ≤ _; omega⟩) h.pieces h.acks
  exact ⟨r1, FS, GS, r3, r4⟩

/-- **C45** for any number of channels: whatever is done with the other channels, nobody shuts the connection down; what each
application asked to send on a channel was accepted in that order, messages and replies numbered from 0 for each
channel; what the other application got on this channel is a prefix of it, and all of it, for all channels, when no
thread of the library can do anything. Missing: the restrictions of `ManyHistory`. -/
theorem C45_channels_partial (chs : List Nat) (ops : List (Bool × ManyOp)) (h : ManyHistory chs ops) :
    let l := ManyLink.run chs .init ops
    l.a.down = false ∧ l.b.down = false ∧
    ∀ c ∈ chs,
      (l.a.chans c).sent.map (fun x => (x.1, x.2.2)) = manyAsks chs c true .init ops ∧ numbersInOrder 0 0 (l.a.chans c).sent ∧
      (l.b.chans c).sent.map (fun x => (x.1, x.2.2)) = manyAsks chs c false .init ops ∧ numbersInOrder 0 0 (l.b.chans c).sent ∧
      (l.b.chans c).got.map seenAs <+: (l.a.chans c).sent ∧ (l.a.chans c).got.map seenAs <+: (l.b.chans c).sent ∧
      (∀ d ∈ (l.a.chans c).got ++ (l.b.chans c).got, d.more = false) ∧
      (manyAtRest chs l → (l.b.chans c).got.map seenAs = (l.a.chans c).sent ∧ (l.a.chans c).got.map seenAs = (l.b.chans c).sent) := by
  obtain ⟨r1, FS, GS, r3, _⟩ := aux_mk_run h
  refine ⟨r3.upA, r3.upB, fun c hc => ?_⟩
  obtain ⟨ab, ba, h1, _, _⟩ := r3.each c hc
  obtain ⟨rest, acc, sA⟩ := h1.sideA
  obtain ⟨rest2, acc2, sB⟩ := h1.sideB
  refine ⟨(r1 c hc).1, sA.order, (r1 c hc).2, sB.order, ⟨rest, sA.split.symm⟩, ⟨rest2, sB.split.symm⟩, ?_,
    fun hr => (mk_quiet h.channels r3 h.acks (fun s op ho _ => hr s op ho)).2 c hc⟩
  intro d hd
  rcases List.mem_append.mp hd with hd | hd
  · exact (sB.whole d hd).1
  · exact (sA.whole d hd).1

theorem aux_mk_library {chs : List Nat} : ∀ (more : List (Bool × ManyOp)), (∀ x ∈ more, manyOfLibrary x.2 = true) →
    ∀ c, (∀ t, direction t (onChannel c more) = []) ∧ (∀ t, askedBy t (onChannel c more) = []) ∧ contentsFit (onChannel c more) ∧
      (∀ t m, manyAsks chs c t m more = []) ∧ (∀ t ops, octetsAsked t (onChannel c (ops ++ more)) = octetsAsked t (onChannel c ops))
  | [], _, c => ⟨fun _ => rfl, fun _ => rfl, trivial, fun _ _ => rfl, fun t ops => by rw [List.append_nil]⟩
  | (s, op) :: more, h, c => by
    have a := h _ List.mem_cons_self
    obtain ⟨i1, i2, i3, i4, i5⟩ := aux_mk_library (chs := chs) more (fun y hy => h y (List.mem_cons_of_mem _ hy)) c
    have e : ∀ t ops, octetsAsked t (onChannel c (ops ++ (s, op) :: more)) = octetsAsked t (onChannel c (ops ++ more)) := by
      intro t ops
      induction ops with
      | nil =>
        cases op with
        | read k => rfl
        | round d => by_cases hd : d = c <;> simp [onChannel, octetsAsked, hd]
        | _ => cases a
      | cons y ops ih =>
        obtain ⟨s2, op2⟩ := y
        cases op2 with
        | read k => exact ih
        | _ d => by_cases hd : d = c <;> simp [onChannel, octetsAsked, hd, ih]
    cases op with
    | read k => exact ⟨i1, i2, i3, fun t m => by simp [manyAsks, manyAsksNow, i4], fun t ops => by rw [e, i5]⟩
    | round d =>
      by_cases hd : d = c
      · exact ⟨fun t => by simp [onChannel, direction, hd, i1], fun t => by simp [onChannel, askedBy, hd, i2],
          by simp [onChannel, contentsFit, hd, i3], fun t m => by simp [manyAsks, manyAsksNow, i4], fun t ops => by rw [e, i5]⟩
      · exact ⟨fun t => by simp [onChannel, hd, i1], fun t => by simp [onChannel, hd, i2],
          by simp [onChannel, hd, i3], fun t m => by simp [manyAsks, manyAsksNow, i4], fun t ops => by rw [e, i5]⟩
    | _ => cases a

theorem aux_mk_moves {chs : List Nat} (more : List (Bool × ManyOp)) : ∀ m, manyAllMove chs m more → ∀ x ∈ more, manyOfLibrary x.2 = true := by
  induction more with
  | nil => intro m _ x hx; cases hx
  | cons y more ih =>
    obtain ⟨s, op⟩ := y
    intro m h x hx
    rcases List.mem_cons.mp hx with hx | hx
    · subst hx; exact h.1
    · exact ih _ h.2.2 x hx

/-- **C45** for any number of channels, termination: the threads of the library can take only a bounded number of steps
that do something. -/
theorem C45_channels_finite_partial (chs : List Nat) (ops : List (Bool × ManyOp)) (h : ManyHistory chs ops) :
    ∃ N, ∀ more, manyAllMove chs (ManyLink.run chs .init ops) more → ManyHistory chs (ops ++ more) → more.length ≤ N := by
  obtain ⟨_, FS, GS, r3, r4⟩ := aux_mk_run h
  refine ⟨(mkMeasure chs (ManyLink.run chs .init ops) FS GS).toNat, ?_⟩
  intro more hm h2
  have hl := aux_mk_library (chs := chs) more (aux_mk_moves more _ hm)
  have hp := h2.pieces
  rw [mk_patient_append, Bool.and_eq_true] at hp
  have hk := h2.acks
  rw [mk_run_append] at hk
  simp only [fun c => (hl c).2.2.2.2] at hk
  obtain ⟨_, FS', GS', i3, _, i6⟩ := mk_run h.channels more (NA := fun c => octetsAsked true (onChannel c ops))
    (NB := fun c => octetsAsked false (onChannel c ops)) (FS := FS) (GS := GS)
    (by simp only [fun c => (hl c).1]; exact r3) (fun c _ => (hl c).2.2.1) (fun c hc => by rw [(hl c).2.1, (hl c).2.1]; exact r4 c hc) hp.2 hk
  have := i6 hm
  have := mk_measure_nonneg i3
  omega

/-- **C45** for any number of channels, progress: the threads of the library can bring everything to the other side. -/
theorem C45_channels_reachable_partial (chs : List Nat) (ops : List (Bool × ManyOp)) (h : ManyHistory chs ops)
    (hs : ∀ c ∈ chs, octetsAsked true (onChannel c ops) < 4294967294 ∧ octetsAsked false (onChannel c ops) < 4294967294) :
    ∃ more, (∀ x ∈ more, manyOfLibrary x.2 = true) ∧ manyPatient chs .init 0 0 (ops ++ more) = true ∧
      manyAtRest chs (ManyLink.run chs .init (ops ++ more)) ∧
      ∀ c ∈ chs,
        ((ManyLink.run chs .init (ops ++ more)).b.chans c).got.map (fun d => (d.type, d.content)) = manyAsks chs c true .init ops ∧
        ((ManyLink.run chs .init (ops ++ more)).a.chans c).got.map (fun d => (d.type, d.content)) = manyAsks chs c false .init ops := by
  obtain ⟨r1, FS, GS, r3, r4⟩ := aux_mk_run h
  obtain ⟨more, m1, m2, m3, m4⟩ := mk_reach_rest h.channels hs ((mkMeasure chs (ManyLink.run chs .init ops) FS GS).toNat + 1) r3 r4 (by omega)
  have hl := aux_mk_library (chs := chs) more m4
  obtain ⟨s1, FS', GS', i3, _, _⟩ := mk_run h.channels more (NA := fun c => octetsAsked true (onChannel c ops))
    (NB := fun c => octetsAsked false (onChannel c ops)) (FS := FS) (GS := GS)
    (by simp only [fun c => (hl c).1]; exact r3) (fun c _ => (hl c).2.2.1) (fun c hc => by rw [(hl c).2.1, (hl c).2.1]; exact r4 c hc) m2
    (fun c hc => .inr (hs c hc))
  have hr := (mk_quiet h.channels i3 (fun c hc => .inr (hs c hc)) (fun s op ho _ => m3 s op ho)).2
  refine ⟨more, m4, ?_, ?_, fun c hc => ⟨?_, ?_⟩⟩
  · rw [mk_patient_append, Bool.and_eq_true]; exact ⟨h.pieces, m2⟩
  · rw [mk_run_append]; exact m3
  · have e := (s1 c hc).1
    rw [(hl c).2.2.2.1, List.append_nil] at e
    rw [mk_run_append, ← (r1 c hc).1, ← e, ← (hr c hc).1, List.map_map]; rfl
  · have e := (s1 c hc).2
    rw [(hl c).2.2.2.1, List.append_nil] at e
    rw [mk_run_append, ← (r1 c hc).2, ← e, ← (hr c hc).2, List.map_map]; rfl

/-! ### Two channels: a large message on the first, which does not fit into its window, short ones on the second, a frame
of one channel read together with the beginning of a frame of the other. -/

def exampleMany : List (Bool × ManyOp) :=
  [(true, .send 1 (exampleBody 5000)), (true, .send 3 (lit "short")), (true, .round 1), (true, .round 3), (false, .read 4000), (false, .read 150),
   (false, .send 3 (lit "you")), (false, .setWindow 3 8192), (false, .read 900), (false, .reply 3 false (lit "fine")), (true, .round 1),
   (false, .round 3), (false, .round 3), (true, .read 9000), (true, .read 9000), (true, .read 9000), (true, .reply 3 true (lit "no")),
   (true, .round 1), (true, .round 3), (false, .read 9000), (false, .read 9000), (false, .read 9000)]

theorem aux_mk_example : ManyHistory [1, 3] exampleMany where
  channels := by decide
  fit := by
    have h5 := aux_lk_body 4999 (by decide)
    intro c hc
    simp only [List.mem_cons, List.not_mem_nil, or_false] at hc
    rcases hc with rfl | rfl
    · exact ⟨h5.1, h5.2, trivial⟩
    · exact ⟨by decide, by decide, by decide, by decide, by decide, by decide, by decide, by decide, by decide, trivial⟩
  many := by decide
  windows := by
    intro c hc
    simp only [List.mem_cons, List.not_mem_nil, or_false] at hc
    rcases hc with rfl | rfl
    · exact ⟨by simp [exampleMany, onChannel, direction, GrowEarly], by simp [exampleMany, onChannel, direction, GrowEarly]⟩
    · exact ⟨by simp [exampleMany, onChannel, direction, GrowEarly]; decide, by simp [exampleMany, onChannel, direction, GrowEarly]⟩
  pieces := by decide +kernel
  acks := by
    intro c hc
    right
    simp only [List.mem_cons, List.not_mem_nil, or_false] at hc
    rcases hc with rfl | rfl <;> decide +kernel

example : (((ManyLink.run [1, 3] .init exampleMany).b.chans 1).got.map seenAs).map (fun d => (d.1, d.2.1, d.2.2.length)) = [(.msg, 0, 5000)] ∧
    ((ManyLink.run [1, 3] .init exampleMany).b.chans 3).got.map seenAs = [(.msg, 0, lit "short"), (.err, 0, lit "no")] ∧
    ((ManyLink.run [1, 3] .init exampleMany).a.chans 3).got.map seenAs = [(.msg, 0, lit "you"), (.rpy, 0, lit "fine")] := by
  decide +kernel

example : (ManyLink.run [1, 3] .init exampleMany).a.down = false ∧ (ManyLink.run [1, 3] .init exampleMany).b.down = false :=
  have h := C45_channels_partial [1, 3] exampleMany aux_mk_example
  ⟨h.1, h.2.1⟩

example : ∀ c ∈ [1, 3], octetsAsked true (onChannel c exampleMany) < 4294967294 ∧ octetsAsked false (onChannel c exampleMany) < 4294967294 := by
  decide +kernel

/-- With several channels a slow header line on one of them ends the others as well. -/
theorem C45_slow_header_others :
    let l := ManyLink.run [1, 2147483647] .init
      ([(true, .send 2147483647 (exampleBody 1000)), (true, .round 2147483647)] ++ List.replicate 26 (false, .read 1) ++
        [(true, .send 1 (lit "hi")), (true, .round 1), (false, .read 9000)])
    l.b.down = true ∧ (l.a.chans 1).sent = [(.msg, 0, lit "hi")] ∧ (l.b.chans 1).got = [] := by
  decide +kernel

end Verif.Props
