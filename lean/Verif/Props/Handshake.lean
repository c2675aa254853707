import Verif.Spec.Handshake
/-!
# C43 — closing a channel
-/
namespace Verif.Props
open Verif.Model Verif.Spec

theorem aux_hs_swap_swap (n : HsNet) : n.swap.swap = n := rfl

/-- Active: has stored the waiter, or is over. -/
def aux_hs_act (x : HsSide) : Prop := x.present = false ∨ x.phase = .stored ∨ x.phase = .checked ∨ x.phase = .sent

/-- No message is unanswered, and no more will be sent. -/
def aux_hs_quiet (x : HsSide) : Prop := x.outstanding = 0 ∧ (x.being = true ∨ x.present = false)

/-- The peer is over, or will be: it has the positive answer or will receive it. -/
def aux_hs_res (b : HsSide) (ab ba : List HsMsg) : Prop :=
  b.present = false ∨ ((b.phase = .stored ∨ b.phase = .checked ∨ b.phase = .sent) ∧
    (b.queue.head? = some .ok ∨ (.ok ∈ ab ∧ .close ∉ ba)))

/-- Invariant of the orderly histories, seen from the side `a`. -/
structure aux_hs_One (a b : HsSide) (ab ba : List HsMsg) (abD baD : List HsData) : Prop where
  phase : a.phase ≠ .idle → a.being = true ∧ a.present = true ∧ a.passive = false
  passive : a.passive = true → a.being = true ∧ a.present = true ∧ b.phase = .sent ∧ b.queue = [] ∧ ab = [] ∧ ba = []
  noDefer : a.deferred = false
  being : a.present = true → a.being = true → a.phase ≠ .idle ∨ a.passive = true
  noQueue : a.phase = .idle ∨ a.phase = .marked → a.queue = []
  closeIn : .close ∈ ab → a.phase = .sent ∨ a.present = false
  once : ab.count .close ≤ 1
  gone : a.present = false → aux_hs_res b ab ba
  head : a.queue = [] ∨ a.queue.head? = some .ok
  err : .err ∈ ab → b.present = false ∨ b.queue.head? = some .ok
  okIn : .ok ∈ ab → b.present = false ∨ b.phase = .sent
  wait : a.phase = .sent → .close ∈ ab ∨ b.passive = true ∨ .ok ∈ ba ∨ a.queue.head? = some .ok
  queueAct : a.queue ≠ [] → aux_hs_act b
  wireAct : ab ≠ [] → aux_hs_act a
  okQ : .ok ∈ a.queue → aux_hs_res b ab ba
  okW : .ok ∈ ab → a.present = false ∨ a.queue.head? = some .ok
  q1 : a.phase = .checked ∨ a.phase = .sent → a.outstanding = 0
  q3 : .ok ∈ ab → aux_hs_quiet a
  q4 : .ok ∈ a.queue → aux_hs_quiet b
  q5 : a.present = false → aux_hs_quiet a ∧ aux_hs_quiet b
  cons : abD.count .msg + b.owed + baD.count .rpy = a.outstanding

def aux_hs_Inv (n : HsNet) : Prop :=
  n.broken = false ∧ aux_hs_One n.a n.b n.ab n.ba n.abData n.baData ∧ aux_hs_One n.b n.a n.ba n.ab n.baData n.abData

theorem aux_hs_inv_init : aux_hs_Inv .init := by
  refine ⟨rfl, ?_, ?_⟩ <;> constructor <;> simp [HsNet.init, HsSide.init]

theorem aux_hs_send {n : HsNet} (h : aux_hs_Inv n) : aux_hs_Inv (n.stepA .send).1 := by
  obtain ⟨a, b, ab, ba, abD, baD, broken⟩ := n
  obtain ⟨hb, h1, h2⟩ := h
  simp only at hb h1 h2
  subst hb
  simp only [HsNet.stepA, Bool.false_eq_true, if_false]
  split
  · rename_i hc
    refine ⟨rfl, ?_, ?_⟩
    · obtain ⟨g1, g2, g3, g4, g5, g6, g7, g8, g9, g10, g11, g12, g13, g14, g15, g16, g17, g18, g19, g20, g21⟩ := h1
      constructor <;> grind [aux_hs_One, aux_hs_act, aux_hs_quiet, aux_hs_res]
    · obtain ⟨g1, g2, g3, g4, g5, g6, g7, g8, g9, g10, g11, g12, g13, g14, g15, g16, g17, g18, g19, g20, g21⟩ := h2
      constructor <;> grind [aux_hs_One, aux_hs_act, aux_hs_quiet, aux_hs_res]
  · exact ⟨rfl, h1, h2⟩

theorem aux_hs_reply {n : HsNet} (h : aux_hs_Inv n) : aux_hs_Inv (n.stepA .reply).1 := by
  obtain ⟨a, b, ab, ba, abD, baD, broken⟩ := n
  obtain ⟨hb, h1, h2⟩ := h
  simp only at hb h1 h2
  subst hb
  simp only [HsNet.stepA, Bool.false_eq_true, if_false]
  split
  · rename_i hc
    refine ⟨rfl, ?_, ?_⟩
    · obtain ⟨g1, g2, g3, g4, g5, g6, g7, g8, g9, g10, g11, g12, g13, g14, g15, g16, g17, g18, g19, g20, g21⟩ := h1
      constructor <;> grind [aux_hs_One, aux_hs_act, aux_hs_quiet, aux_hs_res]
    · obtain ⟨g1, g2, g3, g4, g5, g6, g7, g8, g9, g10, g11, g12, g13, g14, g15, g16, g17, g18, g19, g20, g21⟩ := h2
      constructor <;> grind [aux_hs_One, aux_hs_act, aux_hs_quiet, aux_hs_res]
  · exact ⟨rfl, h1, h2⟩

theorem aux_hs_close {n : HsNet} (h : aux_hs_Inv n) : aux_hs_Inv (n.stepA .close).1 := by
  obtain ⟨a, b, ab, ba, abD, baD, broken⟩ := n
  obtain ⟨hb, h1, h2⟩ := h
  simp only at hb h1 h2
  subst hb
  simp only [HsNet.stepA, Bool.false_eq_true, if_false]
  split
  · rename_i hc
    refine ⟨rfl, ?_, ?_⟩
    · obtain ⟨g1, g2, g3, g4, g5, g6, g7, g8, g9, g10, g11, g12, g13, g14, g15, g16, g17, g18, g19, g20, g21⟩ := h1
      constructor <;> grind [aux_hs_One, aux_hs_act, aux_hs_quiet, aux_hs_res]
    · obtain ⟨g1, g2, g3, g4, g5, g6, g7, g8, g9, g10, g11, g12, g13, g14, g15, g16, g17, g18, g19, g20, g21⟩ := h2
      constructor <;> grind [aux_hs_One, aux_hs_act, aux_hs_quiet, aux_hs_res]
  · exact ⟨rfl, h1, h2⟩

theorem aux_hs_store {n : HsNet} (h : aux_hs_Inv n) : aux_hs_Inv (n.stepA .store).1 := by
  obtain ⟨a, b, ab, ba, abD, baD, broken⟩ := n
  obtain ⟨hb, h1, h2⟩ := h
  simp only at hb h1 h2
  subst hb
  simp only [HsNet.stepA, Bool.false_eq_true, if_false]
  split
  · rename_i hc
    refine ⟨rfl, ?_, ?_⟩
    · obtain ⟨g1, g2, g3, g4, g5, g6, g7, g8, g9, g10, g11, g12, g13, g14, g15, g16, g17, g18, g19, g20, g21⟩ := h1
      constructor <;> grind [aux_hs_One, aux_hs_act, aux_hs_quiet, aux_hs_res]
    · obtain ⟨g1, g2, g3, g4, g5, g6, g7, g8, g9, g10, g11, g12, g13, g14, g15, g16, g17, g18, g19, g20, g21⟩ := h2
      constructor <;> grind [aux_hs_One, aux_hs_act, aux_hs_quiet, aux_hs_res]
  · exact ⟨rfl, h1, h2⟩

theorem aux_hs_check {n : HsNet} (h : aux_hs_Inv n) : aux_hs_Inv (n.stepA .check).1 := by
  obtain ⟨a, b, ab, ba, abD, baD, broken⟩ := n
  obtain ⟨hb, h1, h2⟩ := h
  simp only at hb h1 h2
  subst hb
  simp only [HsNet.stepA, Bool.false_eq_true, if_false]
  split
  · rename_i hc
    refine ⟨rfl, ?_, ?_⟩
    · obtain ⟨g1, g2, g3, g4, g5, g6, g7, g8, g9, g10, g11, g12, g13, g14, g15, g16, g17, g18, g19, g20, g21⟩ := h1
      constructor <;> grind [aux_hs_One, aux_hs_act, aux_hs_quiet, aux_hs_res]
    · obtain ⟨g1, g2, g3, g4, g5, g6, g7, g8, g9, g10, g11, g12, g13, g14, g15, g16, g17, g18, g19, g20, g21⟩ := h2
      constructor <;> grind [aux_hs_One, aux_hs_act, aux_hs_quiet, aux_hs_res]
  · exact ⟨rfl, h1, h2⟩

theorem aux_hs_ask {n : HsNet} (h : aux_hs_Inv n) : aux_hs_Inv (n.stepA .ask).1 := by
  obtain ⟨a, b, ab, ba, abD, baD, broken⟩ := n
  obtain ⟨hb, h1, h2⟩ := h
  simp only at hb h1 h2
  subst hb
  simp only [HsNet.stepA, Bool.false_eq_true, if_false]
  split
  · rename_i hc
    refine ⟨rfl, ?_, ?_⟩
    · obtain ⟨g1, g2, g3, g4, g5, g6, g7, g8, g9, g10, g11, g12, g13, g14, g15, g16, g17, g18, g19, g20, g21⟩ := h1
      constructor <;> grind [aux_hs_One, aux_hs_act, aux_hs_quiet, aux_hs_res]
    · obtain ⟨g1, g2, g3, g4, g5, g6, g7, g8, g9, g10, g11, g12, g13, g14, g15, g16, g17, g18, g19, g20, g21⟩ := h2
      constructor <;> grind [aux_hs_One, aux_hs_act, aux_hs_quiet, aux_hs_res]
  · exact ⟨rfl, h1, h2⟩

theorem aux_hs_finish {n : HsNet} (h : aux_hs_Inv n) : aux_hs_Inv (n.stepA .finish).1 := by
  obtain ⟨a, b, ab, ba, abD, baD, broken⟩ := n
  obtain ⟨hb, h1, h2⟩ := h
  simp only at hb h1 h2
  subst hb
  simp only [HsNet.stepA, Bool.false_eq_true, if_false]
  split
  · rename_i hc
    refine ⟨rfl, ?_, ?_⟩
    · obtain ⟨g1, g2, g3, g4, g5, g6, g7, g8, g9, g10, g11, g12, g13, g14, g15, g16, g17, g18, g19, g20, g21⟩ := h1
      constructor <;> grind [aux_hs_One, aux_hs_act, aux_hs_quiet, aux_hs_res]
    · obtain ⟨g1, g2, g3, g4, g5, g6, g7, g8, g9, g10, g11, g12, g13, g14, g15, g16, g17, g18, g19, g20, g21⟩ := h2
      constructor <;> grind [aux_hs_One, aux_hs_act, aux_hs_quiet, aux_hs_res]
  · exact ⟨rfl, h1, h2⟩

theorem aux_hs_take {n : HsNet} (h : aux_hs_Inv n) : aux_hs_Inv (n.stepA .take).1 := by
  obtain ⟨a, b, ab, ba, abD, baD, broken⟩ := n
  obtain ⟨hb, h1, h2⟩ := h
  simp only at hb h1 h2
  subst hb
  simp only [HsNet.stepA, Bool.false_eq_true, if_false]
  split
  · rename_i hc
    have hh := h1.head
    split
    · exact ⟨rfl, h1, h2⟩
    · rename_i hq
      simp [hq] at hh
    · rename_i m ms hne hq
      have hm : m = .ok := by simpa [hq] using hh
      subst hm
      refine ⟨rfl, ?_, ?_⟩
      · obtain ⟨g1, g2, g3, g4, g5, g6, g7, g8, g9, g10, g11, g12, g13, g14, g15, g16, g17, g18, g19, g20, g21⟩ := h1
        constructor <;> grind [aux_hs_One, aux_hs_act, aux_hs_quiet, aux_hs_res]
      · obtain ⟨g1, g2, g3, g4, g5, g6, g7, g8, g9, g10, g11, g12, g13, g14, g15, g16, g17, g18, g19, g20, g21⟩ := h2
        constructor <;> grind [aux_hs_One, aux_hs_act, aux_hs_quiet, aux_hs_res]
  · exact ⟨rfl, h1, h2⟩

theorem aux_hs_recvData {n : HsNet} (h : aux_hs_Inv n) : aux_hs_Inv (n.stepA .recvData).1 := by
  obtain ⟨a, b, ab, ba, abD, baD, broken⟩ := n
  obtain ⟨hb, h1, h2⟩ := h
  simp only at hb h1 h2
  subst hb
  simp only [HsNet.stepA, Bool.false_eq_true, if_false]
  cases baD with
  | nil => exact ⟨rfl, h1, h2⟩
  | cons x baD =>
    simp only
    split
    · rename_i hp
      have q := h1.q5 (by simpa using hp)
      have c1 := h1.cons
      have c2 := h2.cons
      simp only [aux_hs_quiet] at q
      cases x <;> simp at c1 c2 <;> omega
    · split
      · rename_i hx
        refine ⟨rfl, ?_, ?_⟩
        · obtain ⟨g1, g2, g3, g4, g5, g6, g7, g8, g9, g10, g11, g12, g13, g14, g15, g16, g17, g18, g19, g20, g21⟩ := h1
          constructor <;> grind [aux_hs_One, aux_hs_act, aux_hs_quiet, aux_hs_res]
        · obtain ⟨g1, g2, g3, g4, g5, g6, g7, g8, g9, g10, g11, g12, g13, g14, g15, g16, g17, g18, g19, g20, g21⟩ := h2
          constructor <;> grind [aux_hs_One, aux_hs_act, aux_hs_quiet, aux_hs_res]
      · rename_i hx
        refine ⟨rfl, ?_, ?_⟩
        · obtain ⟨g1, g2, g3, g4, g5, g6, g7, g8, g9, g10, g11, g12, g13, g14, g15, g16, g17, g18, g19, g20, g21⟩ := h1
          constructor <;> grind [aux_hs_One, aux_hs_act, aux_hs_quiet, aux_hs_res]
        · obtain ⟨g1, g2, g3, g4, g5, g6, g7, g8, g9, g10, g11, g12, g13, g14, g15, g16, g17, g18, g19, g20, g21⟩ := h2
          constructor <;> grind [aux_hs_One, aux_hs_act, aux_hs_quiet, aux_hs_res]

/-- A request arrives and the channel does not exist. -/
theorem aux_hs_recv_gone {a b : HsSide} {ab ba : List HsMsg} {abD baD : List HsData}
    (h1 : aux_hs_One a b ab (.close :: ba) abD baD) (h2 : aux_hs_One b a (.close :: ba) ab baD abD)
    (hp : a.present = false) : aux_hs_Inv ⟨a, b, ab ++ [.err], ba, abD, baD, false⟩ := by
  refine ⟨rfl, ?_, ?_⟩
  · obtain ⟨g1, g2, g3, g4, g5, g6, g7, g8, g9, g10, g11, g12, g13, g14, g15, g16, g17, g18, g19, g20, g21⟩ := h1
    constructor <;> grind [aux_hs_One, aux_hs_act, aux_hs_quiet, aux_hs_res]
  · obtain ⟨g1, g2, g3, g4, g5, g6, g7, g8, g9, g10, g11, g12, g13, g14, g15, g16, g17, g18, g19, g20, g21⟩ := h2
    constructor <;> grind [aux_hs_One, aux_hs_act, aux_hs_quiet, aux_hs_res]

/-- A request arrives and the channel is being closed. -/
theorem aux_hs_recv_being {a b : HsSide} {ab ba : List HsMsg} {abD baD : List HsData}
    (h1 : aux_hs_One a b ab (.close :: ba) abD baD) (h2 : aux_hs_One b a (.close :: ba) ab baD abD)
    (hp : a.present = true) (hq : a.phase = .stored ∨ a.phase = .checked ∨ a.phase = .sent) (ho : a.outstanding = 0) :
    aux_hs_Inv ⟨{ a with queue := a.queue ++ [.ok] }, b, ab ++ [.ok], ba, abD, baD, false⟩ := by
  refine ⟨rfl, ?_, ?_⟩
  · obtain ⟨g1, g2, g3, g4, g5, g6, g7, g8, g9, g10, g11, g12, g13, g14, g15, g16, g17, g18, g19, g20, g21⟩ := h1
    constructor <;> grind [aux_hs_One, aux_hs_act, aux_hs_quiet, aux_hs_res]
  · obtain ⟨g1, g2, g3, g4, g5, g6, g7, g8, g9, g10, g11, g12, g13, g14, g15, g16, g17, g18, g19, g20, g21⟩ := h2
    constructor <;> grind [aux_hs_One, aux_hs_act, aux_hs_quiet, aux_hs_res]

/-- A request arrives and is accepted. -/
theorem aux_hs_recv_accept {a b : HsSide} {ab ba : List HsMsg} {abD baD : List HsData}
    (h1 : aux_hs_One a b ab (.close :: ba) abD baD) (h2 : aux_hs_One b a (.close :: ba) ab baD abD)
    (hp : a.present = true) (hq : a.being = false) :
    aux_hs_Inv ⟨{ a with being := true, passive := true }, b, ab, ba, abD, baD, false⟩ := by
  have hact : ¬ aux_hs_act a := by
    have := h1.phase
    simp only [aux_hs_act, hp]
    intro hx
    grind
  have hab : ab = [] := by
    have := h1.wireAct
    grind
  have hbq : b.queue = [] := by
    have := h2.queueAct
    grind
  have hph : a.phase = .idle := by
    have := h1.phase
    grind
  have hbs : b.phase = .sent := by
    have e1 := h2.closeIn (by simp)
    have e2 := h2.gone
    grind [aux_hs_res]
  have hba : ba = [] := by
    have e1 := h2.okIn
    have e2 := h2.err
    have e3 := h1.noQueue (.inl hph)
    have e4 := h2.once
    cases ba with
    | nil => rfl
    | cons m ms => cases m <;> grind
  subst hab hba
  refine ⟨rfl, ?_, ?_⟩
  · obtain ⟨g1, g2, g3, g4, g5, g6, g7, g8, g9, g10, g11, g12, g13, g14, g15, g16, g17, g18, g19, g20, g21⟩ := h1
    constructor <;> grind [aux_hs_One, aux_hs_act, aux_hs_quiet, aux_hs_res]
  · obtain ⟨g1, g2, g3, g4, g5, g6, g7, g8, g9, g10, g11, g12, g13, g14, g15, g16, g17, g18, g19, g20, g21⟩ := h2
    constructor <;> grind [aux_hs_One, aux_hs_act, aux_hs_quiet, aux_hs_res]

/-- An answer arrives. -/
theorem aux_hs_recv_answer {a b : HsSide} {ab ba : List HsMsg} {abD baD : List HsData} {m : HsMsg}
    (h1 : aux_hs_One a b ab (m :: ba) abD baD) (h2 : aux_hs_One b a (m :: ba) ab baD abD) (hm : m ≠ .close) :
    aux_hs_Inv ⟨if a.phase = .sent then { a with queue := a.queue ++ [m] } else a, b, ab, ba, abD, baD, false⟩ := by
  have hcase := h2.noQueue
  have hph := h2.phase
  have hwf : b.phase = .idle ∨ b.phase = .marked ∨ b.phase = .stored ∨ b.phase = .checked ∨ b.phase = .sent := by
    cases b.phase <;> simp
  cases m with
  | close => exact absurd rfl hm
  | ok =>
   split
   · rename_i hs
     refine ⟨rfl, ?_, ?_⟩
     · obtain ⟨g1, g2, g3, g4, g5, g6, g7, g8, g9, g10, g11, g12, g13, g14, g15, g16, g17, g18, g19, g20, g21⟩ := h1
       constructor <;> grind [aux_hs_One, aux_hs_act, aux_hs_quiet, aux_hs_res]
     · obtain ⟨g1, g2, g3, g4, g5, g6, g7, g8, g9, g10, g11, g12, g13, g14, g15, g16, g17, g18, g19, g20, g21⟩ := h2
       constructor <;> grind [aux_hs_One, aux_hs_act, aux_hs_quiet, aux_hs_res]
   · rename_i hs
     refine ⟨rfl, ?_, ?_⟩
     · obtain ⟨g1, g2, g3, g4, g5, g6, g7, g8, g9, g10, g11, g12, g13, g14, g15, g16, g17, g18, g19, g20, g21⟩ := h1
       constructor <;> grind [aux_hs_One, aux_hs_act, aux_hs_quiet, aux_hs_res]
     · obtain ⟨g1, g2, g3, g4, g5, g6, g7, g8, g9, g10, g11, g12, g13, g14, g15, g16, g17, g18, g19, g20, g21⟩ := h2
       constructor <;> grind [aux_hs_One, aux_hs_act, aux_hs_quiet, aux_hs_res]
  | err =>
   split
   · rename_i hs
     refine ⟨rfl, ?_, ?_⟩
     · obtain ⟨g1, g2, g3, g4, g5, g6, g7, g8, g9, g10, g11, g12, g13, g14, g15, g16, g17, g18, g19, g20, g21⟩ := h1
       constructor <;> grind [aux_hs_One, aux_hs_act, aux_hs_quiet, aux_hs_res]
     · obtain ⟨g1, g2, g3, g4, g5, g6, g7, g8, g9, g10, g11, g12, g13, g14, g15, g16, g17, g18, g19, g20, g21⟩ := h2
       constructor <;> grind [aux_hs_One, aux_hs_act, aux_hs_quiet, aux_hs_res]
   · rename_i hs
     refine ⟨rfl, ?_, ?_⟩
     · obtain ⟨g1, g2, g3, g4, g5, g6, g7, g8, g9, g10, g11, g12, g13, g14, g15, g16, g17, g18, g19, g20, g21⟩ := h1
       constructor <;> grind [aux_hs_One, aux_hs_act, aux_hs_quiet, aux_hs_res]
     · obtain ⟨g1, g2, g3, g4, g5, g6, g7, g8, g9, g10, g11, g12, g13, g14, g15, g16, g17, g18, g19, g20, g21⟩ := h2
       constructor <;> grind [aux_hs_One, aux_hs_act, aux_hs_quiet, aux_hs_res]

theorem aux_hs_recv {n : HsNet} (h : aux_hs_Inv n) (d : HsDecision) (ho : hsOrderlyStep n.a n.ba (.recv d) = true) :
    aux_hs_Inv (n.stepA (.recv d)).1 := by
  obtain ⟨a, b, ab, ba, abD, baD, broken⟩ := n
  obtain ⟨hb, h1, h2⟩ := h
  simp only at hb h1 h2 ho
  subst hb
  simp only [HsNet.stepA, Bool.false_eq_true, if_false]
  cases ba with
  | nil => exact ⟨rfl, h1, h2⟩
  | cons m ba =>
    cases m with
    | ok => exact aux_hs_recv_answer h1 h2 (by simp)
    | err => exact aux_hs_recv_answer h1 h2 (by simp)
    | close =>
      simp only [hsOrderlyStep, List.head?_cons] at ho
      cases hp : a.present with
      | false => simp only [Bool.not_false, if_true]; exact aux_hs_recv_gone h1 h2 hp
      | true =>
        simp only [hp, and_self, if_true] at ho
        cases hbe : a.being with
        | true =>
          simp only [hbe, if_true] at ho
          have hnp : a.passive = false := by
            cases hx : a.passive with
            | false => rfl
            | true => have := (h1.passive hx).2.2.2.2.2; simp at this
          have hph := h1.being hp hbe
          have hq1 := h1.q1
          have hcase : a.phase = .stored ∨ a.phase = .checked ∨ a.phase = .sent := by
            cases hx : a.phase <;> simp [hx, hnp] at ho hph ⊢
          have hout : a.outstanding = 0 := by
            rcases hcase with hx | hx
            · simpa [hx] using ho
            · exact hq1 hx
          simp only [Bool.not_true, Bool.false_eq_true, if_false, if_true, hcase]
          simpa only [hp, hbe] using aux_hs_recv_being h1 h2 hp hcase hout
        | false =>
          simp only [hbe, Bool.false_eq_true, if_false, decide_eq_true_eq] at ho
          subst ho
          simp only [Bool.not_true, Bool.false_eq_true, if_false]
          simpa only [hp, hbe] using aux_hs_recv_accept h1 h2 hp hbe

theorem aux_hs_stepA {n : HsNet} (h : aux_hs_Inv n) (op : HsOp) (ho : hsOrderlyStep n.a n.ba op = true) :
    aux_hs_Inv (n.stepA op).1 := by
  cases op with
  | send => exact aux_hs_send h
  | reply => exact aux_hs_reply h
  | close => exact aux_hs_close h
  | store => exact aux_hs_store h
  | check => exact aux_hs_check h
  | ask => exact aux_hs_ask h
  | take => exact aux_hs_take h
  | finish => exact aux_hs_finish h
  | recv d => exact aux_hs_recv h d ho
  | recvData => exact aux_hs_recvData h
  | sendLate | takeLate | timeout | decide _ => simp [hsOrderlyStep] at ho

theorem aux_hs_swap {n : HsNet} (h : aux_hs_Inv n) : aux_hs_Inv n.swap := ⟨h.1, h.2.2, h.2.1⟩

theorem aux_hs_run (ops : List (Bool × HsOp)) : ∀ {n : HsNet}, aux_hs_Inv n → HsOrderly n ops = true →
    aux_hs_Inv (n.run ops).1 := by
  induction ops with
  | nil => intro n h _; exact h
  | cons x ops ih =>
    obtain ⟨s, op⟩ := x
    intro n h ho
    simp only [HsOrderly, Bool.and_eq_true] at ho
    refine ih ?_ ho.2
    cases s with
    | true => exact aux_hs_stepA h op ho.1
    | false => exact aux_hs_swap (aux_hs_stepA (aux_hs_swap h) op ho.1)

/-- Both peers close at the same time a channel on which messages were exchanged. -/
def sampleHandshake : List (Bool × HsOp) :=
  [(true, .send), (false, .recvData), (false, .send), (false, .reply), (true, .recvData), (true, .recvData), (true, .reply),
   (false, .recvData), (true, .close), (true, .store), (false, .close), (false, .store), (true, .check), (false, .check),
   (true, .ask), (false, .ask), (true, .recv .accept), (false, .recv .accept), (true, .take), (false, .take),
   (true, .recv .accept), (false, .recv .accept)]

/-- **C43 (partial)** (agreement): in an orderly history — whoever closes, also both at the same time — when
nothing is under way the channel exists at both sides or at none.
Missing: the steps excluded by `HsOrderly`; each is shown below to break the property. -/
theorem C43_agree_partial (ops : List (Bool × HsOp)) (ho : HsOrderly .init ops = true)
    (hs : Settled (HsNet.init.run ops).1) : (HsNet.init.run ops).1.a.present = (HsNet.init.run ops).1.b.present := by
  obtain ⟨_, h1, h2⟩ := aux_hs_run ops aux_hs_inv_init ho
  obtain ⟨s1, s2, s3, s4, s5, s6, s7, s8⟩ := hs
  have g1 := h1.gone
  have g2 := h2.gone
  simp only [aux_hs_res, s1, s2, s3, s4] at g1 g2
  cases ha : (HsNet.init.run ops).1.a.present <;> cases hb : (HsNet.init.run ops).1.b.present <;> simp_all

example : HsOrderly .init sampleHandshake = true ∧ (HsNet.init.run sampleHandshake).1.a.present = false := by decide +kernel
example : Settled (HsNet.init.run sampleHandshake).1 := by unfold Settled; decide +kernel

/-- **C43 (partial)** (replies first): in an orderly history, from the moment the channel is removed at one of the
sides no message of any side is without reply and no frame of the channel is under way; and no frame ever arrives
for a channel that does not exist. -/
theorem C43_after_replies_partial (ops : List (Bool × HsOp)) (ho : HsOrderly .init ops = true) :
    (HsNet.init.run ops).1.broken = false ∧
    ((HsNet.init.run ops).1.a.present = false ∨ (HsNet.init.run ops).1.b.present = false →
      NothingPending (HsNet.init.run ops).1) := by
  obtain ⟨hb, h1, h2⟩ := aux_hs_run ops aux_hs_inv_init ho
  generalize (HsNet.init.run ops).1 = n at *
  refine ⟨hb, fun hp => ?_⟩
  have q : n.a.outstanding = 0 ∧ n.b.outstanding = 0 := by
    rcases hp with hp | hp
    · exact ⟨(h1.q5 hp).1.1, (h1.q5 hp).2.1⟩
    · exact ⟨(h2.q5 hp).2.1, (h2.q5 hp).1.1⟩
  have c1 := h1.cons
  have c2 := h2.cons
  have nil : ∀ l : List HsData, l.count .msg = 0 → l.count .rpy = 0 → l = [] := by
    intro l e1 e2
    cases l with
    | nil => rfl
    | cons x l => cases x <;> simp at e1 e2
  exact ⟨q.1, q.2, by omega, by omega, nil _ (by omega) (by omega), nil _ (by omega) (by omega)⟩

/-- **C43 (partial)** (no closer is forgotten): in an orderly history, a side that waits for the answer, nothing
being under way and the peer not working on the request, has the positive answer. -/
theorem C43_answer_comes_partial (ops : List (Bool × HsOp)) (ho : HsOrderly .init ops = true)
    (h1 : (HsNet.init.run ops).1.ab = []) (h2 : (HsNet.init.run ops).1.ba = []) :
    ((HsNet.init.run ops).1.a.phase = .sent → (HsNet.init.run ops).1.b.passive = false →
      (HsNet.init.run ops).1.a.queue.head? = some .ok) ∧
    ((HsNet.init.run ops).1.b.phase = .sent → (HsNet.init.run ops).1.a.passive = false →
      (HsNet.init.run ops).1.b.queue.head? = some .ok) := by
  obtain ⟨_, i1, i2⟩ := aux_hs_run ops aux_hs_inv_init ho
  constructor
  · intro hp hq
    simpa [h1, h2, hq] using i1.wait hp
  · intro hp hq
    simpa [h1, h2, hq] using i2.wait hp

example : HsOrderly .init [(true, .close), (true, .store), (true, .check), (true, .ask), (false, .recv .accept), (false, .finish),
      (true, .recv .accept)] = true ∧
    (HsNet.init.run [(true, .close), (true, .store), (true, .check), (true, .ask), (false, .recv .accept), (false, .finish),
      (true, .recv .accept)]).1.a.phase = .sent := by decide +kernel

/-! ## Counting -/

def aux_hs_nat (b : Bool) : Nat := if b then 1 else 0

/-- What holds in every history, seen from the side `a`: `r` removals, `q` requests sent, `g` received, `x` answers. -/
structure aux_hs_Cnt (a : HsSide) (ba : List HsMsg) (qb g x : Nat) : Prop where
  le : x + aux_hs_nat a.passive + aux_hs_nat a.deferred ≤ g
  req : g + ba.count .close = qb

structure aux_hs_Rem (a : HsSide) (r : Nat) : Prop where
  phase : a.phase ≠ .idle → a.being = true ∧ a.present = true ∧ a.passive = false
  passive : a.passive = true → a.being = true ∧ a.present = true
  noDefer : a.deferred = false
  count : r = aux_hs_nat (!a.present)

theorem aux_hs_cnt_step {n : HsNet} {qa qb g x gb xb : Nat} (op : HsOp) (h1 : aux_hs_Cnt n.a n.ba qb g x)
    (h2 : aux_hs_Cnt n.b n.ab qa gb xb) :
    aux_hs_Cnt (n.stepA op).1.a (n.stepA op).1.ba qb (g + (n.stepA op).2.count .gotRequest) (x + (n.stepA op).2.count .answered) ∧
    aux_hs_Cnt (n.stepA op).1.b (n.stepA op).1.ab (qa + (n.stepA op).2.count .asked) gb xb := by
  obtain ⟨a, b, ab, ba, abD, baD, broken⟩ := n
  obtain ⟨e1, e2⟩ := h1
  obtain ⟨e3, e4⟩ := h2
  simp only at e1 e2 e3 e4
  cases op <;> simp only [HsNet.stepA] <;> constructor <;> constructor <;> grind [aux_hs_nat]

theorem aux_hs_rem_step {n : HsNet} {r : Nat} (op : HsOp) (h1 : aux_hs_Rem n.a r) (hd : op ≠ .recv .defer) :
    aux_hs_Rem (n.stepA op).1.a (r + (n.stepA op).2.count .removed) ∧ (n.stepA op).1.b = n.b := by
  obtain ⟨a, b, ab, ba, abD, baD, broken⟩ := n
  obtain ⟨e1, e2, e3, e4⟩ := h1
  simp only at e1 e2 e3 e4
  cases op <;> simp only [HsNet.stepA] <;> constructor <;> (try constructor) <;> grind [aux_hs_nat]

theorem aux_hs_count_map (l : List HsEvent) (s t : Bool) (e : HsEvent) :
    hsCount (l.map (s, ·)) t e = if s = t then l.count e else 0 := by
  induction l with
  | nil => simp [hsCount]
  | cons y l ih =>
    simp only [hsCount] at ih
    simp only [hsCount, List.map_cons, List.count_cons, ih]
    cases s <;> cases t <;> simp

theorem aux_hs_count_append (l m : List (Bool × HsEvent)) (s : Bool) (e : HsEvent) :
    hsCount (l ++ m) s e = hsCount l s e + hsCount m s e := by simp [hsCount]

theorem aux_hs_cnt_run (ops : List (Bool × HsOp)) : ∀ (log : List (Bool × HsEvent)) (n : HsNet),
    (aux_hs_Cnt n.a n.ba (hsCount log false .asked) (hsCount log true .gotRequest) (hsCount log true .answered) ∧
     aux_hs_Cnt n.b n.ab (hsCount log true .asked) (hsCount log false .gotRequest) (hsCount log false .answered)) →
    aux_hs_Cnt (n.run ops).1.a (n.run ops).1.ba (hsCount (log ++ (n.run ops).2) false .asked)
      (hsCount (log ++ (n.run ops).2) true .gotRequest) (hsCount (log ++ (n.run ops).2) true .answered) ∧
    aux_hs_Cnt (n.run ops).1.b (n.run ops).1.ab (hsCount (log ++ (n.run ops).2) true .asked)
      (hsCount (log ++ (n.run ops).2) false .gotRequest) (hsCount (log ++ (n.run ops).2) false .answered) := by
  induction ops with
  | nil => intro log n h; simpa [HsNet.run] using h
  | cons y ops ih =>
    obtain ⟨s, op⟩ := y
    intro log n h
    have key := ih (log ++ (n.step s op).2) (n.step s op).1 (by
      cases s with
      | true =>
        have := aux_hs_cnt_step op h.1 h.2
        simpa [HsNet.step, aux_hs_count_append, aux_hs_count_map] using this
      | false =>
        have := aux_hs_cnt_step (n := n.swap) op h.2 h.1
        simp only [HsNet.step, aux_hs_count_append, aux_hs_count_map, Bool.false_eq_true, if_false, if_true, Nat.add_zero]
        exact this.symm)
    simpa [HsNet.run, List.append_assoc] using key

theorem aux_hs_rem_run (ops : List (Bool × HsOp)) : ∀ (log : List (Bool × HsEvent)) (n : HsNet), NoDefer ops →
    (aux_hs_Rem n.a (hsCount log true .removed) ∧ aux_hs_Rem n.b (hsCount log false .removed)) →
    aux_hs_Rem (n.run ops).1.a (hsCount (log ++ (n.run ops).2) true .removed) ∧
    aux_hs_Rem (n.run ops).1.b (hsCount (log ++ (n.run ops).2) false .removed) := by
  induction ops with
  | nil => intro log n _ h; simpa [HsNet.run] using h
  | cons y ops ih =>
    obtain ⟨s, op⟩ := y
    intro log n hd h
    have hop : op ≠ .recv .defer := by
      intro e
      exact hd s (by rw [e]; exact List.mem_cons_self)
    have key := ih (log ++ (n.step s op).2) (n.step s op).1 (fun t ht => hd t (List.mem_cons_of_mem _ ht)) (by
      cases s with
      | true =>
        have := aux_hs_rem_step op h.1 hop
        simp only [HsNet.step, aux_hs_count_append, aux_hs_count_map, if_true]
        refine ⟨by simpa using this.1, ?_⟩
        rw [this.2]
        simpa using h.2
      | false =>
        have := aux_hs_rem_step (n := n.swap) op h.2 hop
        simp only [HsNet.step, aux_hs_count_append, aux_hs_count_map, Bool.false_eq_true, if_false]
        refine ⟨?_, by simpa [HsNet.swap] using this.1⟩
        have e : ((n.swap.stepA op).1.swap).a = n.a := this.2
        rw [e]
        simpa using h.1)
    simpa [HsNet.run, List.append_assoc] using key

/-- **C43** (answers): in every history, a side never sends more answers than the close requests it received, and it
never receives more of them than were sent. -/
theorem C43_at_most_one_answer (ops : List (Bool × HsOp)) (s : Bool) :
    hsCount (HsNet.init.run ops).2 s .answered ≤ hsCount (HsNet.init.run ops).2 s .gotRequest ∧
    hsCount (HsNet.init.run ops).2 s .gotRequest ≤ hsCount (HsNet.init.run ops).2 (!s) .asked := by
  have h := aux_hs_cnt_run ops [] .init ⟨⟨by decide, by decide⟩, ⟨by decide, by decide⟩⟩
  simp only [List.nil_append] at h
  cases s with
  | true =>
    have e1 := h.1.le
    have e2 := h.1.req
    simp only [Bool.not_true]
    omega
  | false =>
    have e1 := h.2.le
    have e2 := h.2.req
    simp only [Bool.not_false]
    omega

example : hsCount (HsNet.init.run sampleHandshake).2 true .answered = 1 := by decide +kernel

/-- **C43 (partial)** (removed once): if no decision is deferred, each side removes the channel at most once,
whatever else happens: it is removed once exactly if it is not there. -/
theorem C43_removed_once_partial (ops : List (Bool × HsOp)) (hd : NoDefer ops) :
    hsCount (HsNet.init.run ops).2 true .removed = (if (HsNet.init.run ops).1.a.present then 0 else 1) ∧
    hsCount (HsNet.init.run ops).2 false .removed = (if (HsNet.init.run ops).1.b.present then 0 else 1) := by
  have h := aux_hs_rem_run ops [] .init hd
    ⟨⟨by simp [HsNet.init, HsSide.init], by simp [HsNet.init, HsSide.init], rfl, by decide⟩,
     ⟨by simp [HsNet.init, HsSide.init], by simp [HsNet.init, HsSide.init], rfl, by decide⟩⟩
  simp only [List.nil_append] at h
  refine ⟨h.1.count.trans ?_, h.2.count.trans ?_⟩
  · cases (HsNet.init.run ops).1.a.present <;> rfl
  · cases (HsNet.init.run ops).1.b.present <;> rfl

example : NoDefer sampleHandshake := by
  intro s
  cases s <;> decide +kernel

theorem aux_hs_eq_step {n : HsNet} {r g x : Nat} (op : HsOp) (h1 : aux_hs_Rem n.a r) (hd : op ≠ .recv .defer)
    (he : x + aux_hs_nat n.a.passive = g) :
    (x + (n.stepA op).2.count .answered) + aux_hs_nat (n.stepA op).1.a.passive = g + (n.stepA op).2.count .gotRequest := by
  obtain ⟨a, b, ab, ba, abD, baD, broken⟩ := n
  obtain ⟨e1, e2, e3, e4⟩ := h1
  simp only at e1 e2 e3 e4 he
  cases op <;> simp only [HsNet.stepA] <;> grind [aux_hs_nat]

theorem aux_hs_eq_run (ops : List (Bool × HsOp)) : ∀ (log : List (Bool × HsEvent)) (n : HsNet), NoDefer ops →
    (aux_hs_Rem n.a (hsCount log true .removed) ∧ aux_hs_Rem n.b (hsCount log false .removed)) →
    hsCount log true .answered + aux_hs_nat n.a.passive = hsCount log true .gotRequest →
    hsCount log false .answered + aux_hs_nat n.b.passive = hsCount log false .gotRequest →
    hsCount (log ++ (n.run ops).2) true .answered + aux_hs_nat (n.run ops).1.a.passive =
      hsCount (log ++ (n.run ops).2) true .gotRequest ∧
    hsCount (log ++ (n.run ops).2) false .answered + aux_hs_nat (n.run ops).1.b.passive =
      hsCount (log ++ (n.run ops).2) false .gotRequest := by
  induction ops with
  | nil => intro log n _ _ h1 h2; simpa [HsNet.run] using ⟨h1, h2⟩
  | cons y ops ih =>
    obtain ⟨s, op⟩ := y
    intro log n hd h h1 h2
    have hop : op ≠ .recv .defer := by
      intro e
      exact hd s (by rw [e]; exact List.mem_cons_self)
    have hone : NoDefer [(s, op)] := by
      intro t ht
      simp only [List.mem_singleton, Prod.mk.injEq] at ht
      exact hop ht.2.symm
    have hrem := aux_hs_rem_run [(s, op)] log n hone h
    simp only [HsNet.run, List.append_nil] at hrem
    have hd' : NoDefer ops := fun t ht => hd t (List.mem_cons_of_mem _ ht)
    have key := ih (log ++ (n.step s op).2) (n.step s op).1 hd' hrem
    simp only [HsNet.run, ← List.append_assoc]
    cases s with
    | true =>
      have e := aux_hs_eq_step op h.1 hop h1
      have eb := (aux_hs_rem_step op h.1 hop).2
      refine key ?_ ?_
      · simpa [HsNet.step, aux_hs_count_append, aux_hs_count_map] using e
      · simpa [HsNet.step, aux_hs_count_append, aux_hs_count_map, eb] using h2
    | false =>
      have e := aux_hs_eq_step (n := n.swap) op h.2 hop h2
      have eb : (n.swap.stepA op).1.b = n.a := (aux_hs_rem_step (n := n.swap) op h.2 hop).2
      refine key ?_ ?_
      · have ea : (n.step false op).1.a = n.a := eb
        rw [ea]
        simpa [HsNet.step, aux_hs_count_append, aux_hs_count_map] using h1
      · have ea : (n.step false op).1.b = (n.swap.stepA op).1.a := rfl
        rw [ea]
        simpa [HsNet.step, aux_hs_count_append, aux_hs_count_map] using e

/-- **C43 (partial)** (one answer): if no decision is deferred, then in every history, refusals and simultaneous requests included, when nothing is under way each
close request sent was answered exactly once. -/
theorem C43_one_answer_partial (ops : List (Bool × HsOp)) (hd : NoDefer ops)
    (hs : Settled (HsNet.init.run ops).1) (s : Bool) :
    hsCount (HsNet.init.run ops).2 s .answered = hsCount (HsNet.init.run ops).2 (!s) .asked := by
  have h := aux_hs_eq_run ops [] .init hd
    ⟨⟨by simp [HsNet.init, HsSide.init], by simp [HsNet.init, HsSide.init], rfl, by decide⟩,
     ⟨by simp [HsNet.init, HsSide.init], by simp [HsNet.init, HsSide.init], rfl, by decide⟩⟩ (by decide) (by decide)
  have h' := aux_hs_cnt_run ops [] .init ⟨⟨by decide, by decide⟩, ⟨by decide, by decide⟩⟩
  simp only [List.nil_append] at h h'
  obtain ⟨s1, s2, _, _, s5, s6, _, _⟩ := hs
  have e1 := h'.1.req
  have e2 := h'.2.req
  simp only [s1, s2, s5, s6, aux_hs_nat, List.count_nil, Bool.false_eq_true, if_false] at h e1 e2
  cases s with
  | true => simp only [Bool.not_true]; omega
  | false => simp only [Bool.not_false]; omega

example : hsCount (HsNet.init.run sampleHandshake).2 false .asked = 1 := by decide +kernel

/-! ## Faults -/

/-- **C43** (full statement, violated): whatever happens, no frame of the channel arrives when it is gone; a side
removes it once at most; and when nothing is under way both sides agree and each request was answered once. -/
def C43_statement : Prop :=
  ∀ ops : List (Bool × HsOp), (HsNet.init.run ops).1.broken = false ∧
    (∀ s, hsCount (HsNet.init.run ops).2 s .removed ≤ 1) ∧
    (Settled (HsNet.init.run ops).1 → (HsNet.init.run ops).1.a.present = (HsNet.init.run ops).1.b.present ∧
      ∀ s, hsCount (HsNet.init.run ops).2 s .answered = hsCount (HsNet.init.run ops).2 (!s) .asked)

/-- **C43 (fault)**: the request of the peer arrives when this side has started to close and has not stored its
waiter: it answers, but then asks too, is told that there is no such channel, and keeps it. -/
theorem C43_half_closed :
    let n := (HsNet.init.run [(true, .close), (false, .close), (false, .store), (false, .check), (false, .ask), (true, .recv .accept),
      (true, .store), (true, .check), (true, .ask), (false, .recv .accept), (false, .take), (false, .recv .accept),
      (true, .recv .accept), (true, .take)]).1
    Settled n ∧ n.a.present = true ∧ n.b.present = false := by unfold Settled; decide +kernel

/-- **C43 (fault)**: a request is refused; later the side that refused it closes the channel: it is told that it is
closed, but the channel stays at the other side. -/
theorem C43_refused_then_closed :
    let n := (HsNet.init.run [(true, .close), (true, .store), (true, .check), (true, .ask), (false, .recv .refuse),
      (true, .recv .accept), (true, .take), (false, .close), (false, .store), (false, .check), (false, .ask),
      (true, .recv .accept), (false, .recv .accept), (false, .take)]).1
    Settled n ∧ n.a.present = true ∧ n.b.present = false := by unfold Settled; decide +kernel

/-- **C43 (fault)**: both sides close at the same time, one of them still has a message without reply: its channel
is removed by the peer before the message arrives, which breaks the connection. -/
theorem C43_message_to_closed_channel :
    (HsNet.init.run [(false, .send), (true, .close), (true, .store), (true, .check), (true, .ask), (false, .close), (false, .store),
      (false, .recv .accept), (true, .recv .accept), (true, .take), (true, .recvData)]).1.broken = true := by decide +kernel

/-- **C43 (fault)**: a message whose sender tested that the channel was not being closed just before it was: it is
sent after the close request, and breaks the connection. -/
theorem C43_sent_after_close :
    (HsNet.init.run [(true, .close), (true, .store), (true, .check), (true, .sendLate), (true, .ask), (false, .recv .accept),
      (false, .finish), (false, .recvData)]).1.broken = true := by decide +kernel

/-- What a side does on its own: all but receiving. -/
def aux_hs_own : HsOp → Bool
  | .recv _ | .recvData => false
  | _ => true

theorem aux_hs_wait_step (n : HsNet) (op : HsOp) (ho : aux_hs_own op = true)
    (h : n.a.phase = .stored ∨ n.a.passive = true) (hp : n.a.phase = .stored ∨ n.a.phase = .idle) (hd : n.a.deferred = false)
    (hpr : n.a.present = true) (hb : n.a.being = true) (hout : 0 < n.a.outstanding) :
    ((n.stepA op).1.a.phase = .stored ∨ (n.stepA op).1.a.passive = true) ∧
    ((n.stepA op).1.a.phase = .stored ∨ (n.stepA op).1.a.phase = .idle) ∧ (n.stepA op).1.a.deferred = false ∧
    (n.stepA op).1.a.present = true ∧ (n.stepA op).1.a.being = true ∧ 0 < (n.stepA op).1.a.outstanding ∧
    (n.stepA op).1.ab = n.ab := by
  obtain ⟨a, b, ab, ba, abD, baD, broken⟩ := n
  simp only at h hp hd hpr hb hout
  cases op <;> simp only [aux_hs_own, Bool.false_eq_true] at ho <;> simp only [HsNet.stepA] <;> grind

/-- **C43 (fault)**: a side that closes a channel, or has accepted to, with a message of its own not replied yet, waits without a limit:
whatever it does meanwhile, as long as nothing is received it keeps the channel and neither asks nor answers. -/
theorem C43_waits_for_ever (before after : List (Bool × HsOp))
    (h : (HsNet.init.run before).1.a.phase = .stored ∨ (HsNet.init.run before).1.a.passive = true)
    (hp : (HsNet.init.run before).1.a.phase = .stored ∨ (HsNet.init.run before).1.a.phase = .idle)
    (hd : (HsNet.init.run before).1.a.deferred = false) (hpr : (HsNet.init.run before).1.a.present = true)
    (hb : (HsNet.init.run before).1.a.being = true) (hout : 0 < (HsNet.init.run before).1.a.outstanding)
    (ho : ∀ x ∈ after, x.1 = true ∧ x.2 ≠ .recvData ∧ ∀ d, x.2 ≠ .recv d) :
    ((HsNet.init.run before).1.run after).1.a.present = true ∧
    ((HsNet.init.run before).1.run after).1.ab = (HsNet.init.run before).1.ab := by
  generalize (HsNet.init.run before).1 = n at *
  induction after generalizing n with
  | nil => exact ⟨hpr, rfl⟩
  | cons x after ih =>
    obtain ⟨s, op⟩ := x
    obtain ⟨hs, h1, h2⟩ := ho (s, op) List.mem_cons_self
    dsimp only at hs h1 h2
    subst hs
    have hown : aux_hs_own op = true := by
      cases op <;> first | rfl | exact absurd rfl h1 | exact absurd rfl (h2 _)
    obtain ⟨k1, k2, k3, k4, k5, k6, k7⟩ := aux_hs_wait_step n op hown h hp hd hpr hb hout
    have := ih (fun y hy => ho y (List.mem_cons_of_mem _ hy)) (n.step true op).1 k1 k2 k3 k4 k5 k6
    simp only [HsNet.run]
    exact ⟨this.1, this.2.trans k7⟩

example : let n := (HsNet.init.run [(true, .send), (true, .close), (true, .store)]).1
    n.a.phase = .stored ∧ n.a.deferred = false ∧ n.a.present = true ∧ n.a.being = true ∧ 0 < n.a.outstanding := by decide +kernel

/-- **C43 (fault)**: the decision about the request of the peer is deferred, and meanwhile the side closes the
channel: it is removed twice (the second time it was already released). -/
theorem C43_removed_twice :
    hsCount (HsNet.init.run [(false, .close), (false, .store), (false, .check), (false, .ask), (true, .recv .defer), (true, .close),
      (true, .store), (true, .check), (true, .ask), (false, .recv .accept), (true, .recv .accept), (true, .take), (true, .decide true),
      (true, .finish)]).2 true .removed = 2 := by decide +kernel

theorem C43_statement_false : ¬ C43_statement := by
  intro h
  have := (h [(false, .send), (true, .close), (true, .store), (true, .check), (true, .ask), (false, .close), (false, .store),
      (false, .recv .accept), (true, .recv .accept), (true, .take), (true, .recvData)]).1
  rw [C43_message_to_closed_channel] at this
  exact absurd this (by decide)

theorem aux_hs_being_step (n : HsNet) (op : HsOp) (h : n.a.being = true) :
    (n.stepA op).1.a.being = true ∧ (n.stepA op).1.b = n.b ∧ (op = .send → (n.stepA op).1 = n) := by
  obtain ⟨a, b, ab, ba, abD, baD, broken⟩ := n
  simp only at h
  cases op <;> simp only [HsNet.stepA] <;> grind

/-- **C43 (fault)**: once a side has called close, and whatever the answer — the refusal of the peer included — the
channel is marked for ever at that side: in every later history no message can be sent on it, and no other close
request. -/
theorem C43_marked_for_ever (before after : List (Bool × HsOp))
    (h : (HsNet.init.run before).1.a.being = true) :
    ((HsNet.init.run before).1.run after).1.a.being = true ∧
    (((HsNet.init.run before).1.run after).1.stepA .send).1 = ((HsNet.init.run before).1.run after).1 ∧
    (((HsNet.init.run before).1.run after).1.stepA .close).1 = ((HsNet.init.run before).1.run after).1 := by
  generalize (HsNet.init.run before).1 = n at *
  have key : ∀ (ops : List (Bool × HsOp)) (n : HsNet), n.a.being = true → (n.run ops).1.a.being = true := by
    intro ops
    induction ops with
    | nil => intro n h; exact h
    | cons y ops ih =>
      obtain ⟨s, op⟩ := y
      intro n h
      refine ih _ ?_
      cases s with
      | true => exact (aux_hs_being_step n op h).1
      | false =>
        have e : ((n.swap.stepA op).1.swap).a = n.a := by
          have : ∀ m : HsNet, (m.stepA op).1.b = m.b := by
            intro m
            obtain ⟨a, b, ab, ba, abD, baD, broken⟩ := m
            cases op <;> simp only [HsNet.stepA] <;> grind
          exact this n.swap
        show ((n.swap.stepA op).1.swap).a.being = true
        rw [e]; exact h
  have hb := key after n h
  refine ⟨hb, (aux_hs_being_step _ .send hb).2.2 rfl, ?_⟩
  generalize (n.run after).1 = m at *
  simp only [HsNet.stepA, hb]
  split <;> simp

example : (HsNet.init.run [(true, .close), (true, .store), (true, .check), (true, .ask), (false, .recv .refuse),
      (true, .recv .accept), (true, .take)]).1.a.being = true := by decide +kernel

end Verif.Props
