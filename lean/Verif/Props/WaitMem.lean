import Verif.Spec.WaitMem
/-!
# C100: the memory of wait reply objects
-/
namespace Verif.Props
open Verif.Model Verif.Spec

def aux_wm_own : WmPc → Int
  | .done | .leaving (some _) => 0
  | _ => 1

def aux_wm_wref : WmPc → Int
  | .ready | .done => 0
  | _ => 1

def aux_wm_keeps : WmPc → Bool
  | .done | .leaving (some _) | .cleared _ => false
  | _ => true

structure aux_wm_J (s : Wm) : Prop where
  looking : s.looking = 0
  rc : s.rc = aux_wm_own s.pc + s.waiting + (if s.reader = .idle then 0 else 1) + s.refd + s.pushed
  freed : s.freed = true ↔ s.rc = 0
  qrc : s.qrc = (if s.freed then 0 else 1) + aux_wm_wref s.pc
  qfreed : s.qfreed = true ↔ s.qrc = 0
  slot : s.slot = true → aux_wm_keeps s.pc = true
  nofault : s.objFault = false
  empty : s.freed = true → s.items.filterMap WmItem.frame? = []

theorem aux_wm_own01 (p : WmPc) : aux_wm_own p = 0 ∨ aux_wm_own p = 1 := by
  unfold aux_wm_own; split <;> simp

theorem aux_wm_wref01 (p : WmPc) : aux_wm_wref p = 0 ∨ aux_wm_wref p = 1 := by
  unfold aux_wm_wref; split <;> simp

theorem aux_wm_init (c : Bool) : aux_wm_J (Wm.init c) := by
  constructor <;> simp [Wm.init, aux_wm_own, aux_wm_wref, aux_wm_keeps]

theorem aux_wm_touch {s : Wm} (h : s.freed = false) : s.touch = s := by simp [Wm.touch, h]

theorem aux_wm_qtouch {s : Wm} (h : s.qfreed = false) : s.qtouch = s := by simp [Wm.qtouch, h]

theorem aux_wm_qunref {s : Wm} (h : s.qfreed = false) :
    s.qunref = { s with qrc := s.qrc - 1, qfreed := decide (s.qrc = 1) } := by
  obtain ⟨⟩ := s
  simp only at h
  subst h
  simp only [Wm.qunref, Wm.qtouch]
  split <;> rename_i e
  · simp at e ⊢; try grind
  · simp at e ⊢; grind

theorem aux_wm_unref {s : Wm} (h : s.freed = false) (hq : s.qfreed = false) :
    s.unref = if s.rc = 1 then { s with rc := 0, freed := true, released := s.released ++ s.items.filterMap WmItem.frame?, items := [], qrc := s.qrc - 1, qfreed := decide (s.qrc = 1) }
      else { s with rc := s.rc - 1 } := by
  simp only [Wm.unref, aux_wm_touch h]
  by_cases e : s.rc = 1
  · rw [if_pos (by omega), if_pos e, aux_wm_qunref (by exact hq)]
  · rw [if_neg (by omega), if_neg e]

theorem aux_wm_alive {s : Wm} (J : aux_wm_J s) (h : 1 ≤ s.rc) : s.freed = false ∧ s.qfreed = false := by
  have w := aux_wm_wref01 s.pc
  have e : s.freed = false := by
    cases e : s.freed
    · rfl
    · have := J.freed.1 e; omega
  have := J.qrc
  rw [e] at this
  refine ⟨e, ?_⟩
  cases e : s.qfreed
  · rfl
  · have := J.qfreed.1 e; simp at *; omega

theorem aux_wm_qalive {s : Wm} (J : aux_wm_J s) (h : aux_wm_wref s.pc = 1) : s.qfreed = false := by
  have := J.qrc
  cases e : s.qfreed
  · rfl
  · have := J.qfreed.1 e; split at * <;> omega

structure aux_wm_D (s u : Wm) : Prop where
  rc : u.rc = s.rc - 1
  freed : u.freed = true ↔ u.rc = 0
  qrc : u.qrc = (if u.freed then 0 else 1) + aux_wm_wref s.pc
  qfreed : u.qfreed = true ↔ u.qrc = 0
  empty : u.freed = true → u.items.filterMap WmItem.frame? = []
  items : u.freed = false → u.items = s.items ∧ u.released = s.released
  rel : u.freed = true → u.items = [] ∧ u.released = s.released ++ s.items.filterMap WmItem.frame?
  same : u.pc = s.pc ∧ u.waiting = s.waiting ∧ u.reader = s.reader ∧ u.refd = s.refd ∧ u.pushed = s.pushed ∧ u.looking = s.looking ∧ u.slot = s.slot ∧
    u.objFault = s.objFault ∧ u.queueFault = s.queueFault ∧ u.hook = s.hook ∧ u.lost = s.lost ∧ u.given = s.given ∧ u.next = s.next ∧ u.broken = s.broken

theorem aux_wm_drop {s : Wm} (J : aux_wm_J s) (h : 1 ≤ s.rc) : aux_wm_D s s.unref := by
  have a := aux_wm_alive J h
  have jq := J.qrc
  have jf := J.freed
  have jqf := J.qfreed
  have w := aux_wm_wref01 s.pc
  rw [a.1] at jq
  simp at jq
  rw [aux_wm_unref a.1 a.2]
  split
  · constructor <;> simp_all <;> omega
  · constructor <;> simp_all <;> omega

macro "wm_fin" J:ident : tactic => `(tactic| (obtain ⟨j1, j2, j3, j4, j5, j6, j7, j8⟩ := $J:ident; constructor <;> simp_all [aux_wm_own, aux_wm_wref, aux_wm_keeps] <;> grind))

macro "wm_kin" J:ident : tactic => `(tactic| (obtain ⟨j1, j2, j3, j4, j5, j6, j7, j8⟩ := $J:ident; constructor <;> simp_all [WmItem.frame?] <;> omega))

macro "wm_al" e:ident jrc:ident al:ident : tactic => `(tactic| (apply $al:ident; rw [$e:ident] at $jrc:ident; simp [aux_wm_own] at $jrc:ident; omega))

theorem aux_wm_step {s : Wm} (J : aux_wm_J s) (op : WmOp) (h1 : op ≠ .look) (h2 : op ≠ .free) : aux_wm_J (s.step op) := by
  have o := aux_wm_own01 s.pc
  have w := aux_wm_wref01 s.pc
  have al := aux_wm_alive J
  have qal := aux_wm_qalive J
  have jrc := J.rc
  have r01 : (if s.reader = .idle then 0 else 1 : Int) = 0 ∨ (if s.reader = .idle then 0 else 1 : Int) = 1 := by split <;> simp
  cases op <;> simp at h1 h2 <;> simp only [Wm.step]
  case send =>
    split
    · rename_i e
      have a : s.freed = false ∧ s.qfreed = false := by wm_al e jrc al
      simp only [Wm.ref, aux_wm_touch a.1]
      wm_fin J
    · exact J
  case wait =>
    split
    · rename_i e
      obtain ⟨e, -⟩ := e
      have a : s.freed = false ∧ s.qfreed = false := by wm_al e jrc al
      simp only [aux_wm_touch a.1, aux_wm_qtouch a.2]
      wm_fin J
    · exact J
  case install =>
    split
    · wm_fin J
    · exact J
  case pop =>
    split
    · rename_i e
      have a : s.freed = false ∧ s.qfreed = false := by wm_al e jrc al
      split
      · exact J
      · simp only [aux_wm_touch a.1, aux_wm_qtouch a.2]
        wm_fin J
    · exact J
  case timeout =>
    split
    · rename_i e
      have a : s.freed = false ∧ s.qfreed = false := by wm_al e jrc al
      simp only [aux_wm_touch a.1, aux_wm_qtouch a.2]
      wm_fin J
    · exact J
  case uninstall =>
    split
    · split
      · wm_fin J
      · split
        · wm_fin J
        · wm_fin J
    · exact J
  case drain =>
    split
    · rename_i r e
      have a : s.freed = false ∧ s.qfreed = false := by wm_al e jrc al
      split
      · exact J
      · simp only [aux_wm_qtouch a.2]
        wm_fin J
    · exact J
  case finish =>
    split
    · rename_i f e
      have a : s.freed = false ∧ s.qfreed = false := by wm_al e jrc al
      simp only [aux_wm_touch a.1]
      wm_fin J
    · wm_fin J
    · exact J
  case release =>
    split
    · rename_i f e
      have D := aux_wm_drop J (by simp [e, aux_wm_own] at jrc; omega)
      obtain ⟨d1, d2, d3, d4, d5, -, -, d6, d7, d8, d9, d10, d11, d12, d13, -⟩ := D
      generalize s.unref = u at *
      wm_fin J
    · exact J
  case leave =>
    split
    · rename_i f e
      have a : s.qfreed = false := qal (by rw [e]; rfl)
      simp only [aux_wm_qunref a]
      wm_fin J
    · rename_i e
      have a : s.qfreed = false := qal (by rw [e]; rfl)
      simp only [aux_wm_qunref a]
      wm_fin J
    · exact J
  case remove =>
    split
    · wm_fin J
    · exact J
  case peek =>
    split
    · rename_i e
      have a := al (by omega)
      rw [aux_wm_touch a.1]
      exact J
    · exact J
  case take =>
    split
    · rename_i e
      have a := al (by omega)
      rw [aux_wm_touch a.1]
      wm_fin J
    · exact J
  case push =>
    split
    · rename_i e
      have a := al (by simp [e] at jrc; omega)
      simp only [Wm.pushFrame, aux_wm_touch a.1, aux_wm_qtouch a.2]
      wm_fin J
    · exact J
  case settle =>
    split
    · rename_i e
      have D := aux_wm_drop J (by simp [e] at jrc; omega)
      obtain ⟨d1, d2, d3, d4, d5, -, -, d6, d7, d8, d9, d10, d11, d12, d13, -⟩ := D
      generalize s.unref = u at *
      obtain ⟨j1, j2, j3, j4, j5, j6, j7, j8⟩ := J
      constructor <;> simp_all <;> omega
    · exact J
  case chanFree =>
    split
    · rename_i e
      have D := aux_wm_drop J (by omega)
      obtain ⟨d1, d2, d3, d4, d5, -, -, d6, d7, d8, d9, d10, d11, d12, d13, -⟩ := D
      generalize s.unref = u at *
      obtain ⟨j1, j2, j3, j4, j5, j6, j7, j8⟩ := J
      constructor <;> simp_all <;> omega
    · exact J
  case cref =>
    rw [if_neg (by have := J.looking; omega)]
    exact J
  case cpush =>
    split
    · rename_i e
      have a := al (by omega)
      simp only [Wm.pushFrame, aux_wm_touch a.1, aux_wm_qtouch a.2]
      wm_fin J
    · exact J
  case cunref =>
    split
    · rename_i e
      have D := aux_wm_drop J (by omega)
      obtain ⟨d1, d2, d3, d4, d5, -, -, d6, d7, d8, d9, d10, d11, d12, d13, -⟩ := D
      generalize s.unref = u at *
      obtain ⟨j1, j2, j3, j4, j5, j6, j7, j8⟩ := J
      constructor <;> simp_all <;> omega
    · exact J
  case breaks => wm_fin J
  case hook =>
    split
    · wm_fin J
    · exact J
  case notify =>
    split
    · simp only [Wm.qtouch]
      split <;> wm_kin J
    · exact J

theorem aux_wm_free {s : Wm} (J : aux_wm_J s) (hs : s.slot = false ∨ s.pc ≠ .ready) : aux_wm_J (s.step .free) := by
  have jrc := J.rc
  simp only [Wm.step]
  split
  · rename_i e
    have D := aux_wm_drop J (by simp [e, aux_wm_own] at jrc; split at jrc <;> omega)
    obtain ⟨d1, d2, d3, d4, d5, -, -, d6, d7, d8, d9, d10, d11, d12, d13, -⟩ := D
    generalize s.unref = u at *
    wm_fin J
  · exact J

theorem aux_wm_giveup {s : Wm} (J : aux_wm_J s) : aux_wm_J ((s.step .free).step .remove) := by
  have jrc := J.rc
  by_cases e : s.pc = .ready
  · have D := aux_wm_drop J (by simp [e, aux_wm_own] at jrc; split at jrc <;> omega)
    obtain ⟨d1, d2, d3, d4, d5, -, -, d6, d7, d8, d9, d10, d11, d12, d13, -⟩ := D
    simp only [Wm.step, e, if_pos]
    generalize s.unref = u at *
    wm_fin J
  · exact aux_wm_step (aux_wm_free J (.inr e)) _ (by simp) (by simp)

theorem aux_wm_cross {s : Wm} (J : aux_wm_J s) : aux_wm_J ((s.step .look).step .cref) := by
  have jrc := J.rc
  have jl := J.looking
  by_cases e : s.slot = true
  · have k := J.slot e
    have o : aux_wm_own s.pc = 1 := by revert k; unfold aux_wm_keeps aux_wm_own; grind
    have a := (aux_wm_alive J (by rw [o] at jrc; split at jrc <;> omega)).1
    simp only [Wm.step, e, if_pos, jl, Nat.zero_add, Nat.lt_one_iff, Wm.ref, Wm.touch, a]
    obtain ⟨j1, j2, j3, j4, j5, j6, j7, j8⟩ := J
    constructor <;> simp_all <;> omega
  · have e2 : s.step .look = s := by simp [Wm.step, e]
    rw [e2]
    exact aux_wm_step J _ (by simp) (by simp)

theorem aux_wm_slot {s : Wm} (h : s.slot = false) (op : WmOp) : (s.step op).slot = false := by
  cases op <;> simp only [Wm.step] <;> (repeat' split) <;>
    simp_all [Wm.ref, Wm.unref, Wm.touch, Wm.qtouch, Wm.qunref, Wm.pushFrame] <;> (repeat' split) <;> simp_all

theorem aux_wm_user {s : Wm} (J : aux_wm_J s) (h : s.slot = false) (op : WmOp) : aux_wm_J (s.step op) := by
  by_cases e : op = .look
  · subst e; simp [Wm.step, h]; exact J
  · by_cases e2 : op = .free
    · subst e2; exact aux_wm_free J (.inl h)
    · exact aux_wm_step J op e e2

theorem aux_wm_ind (P : Wm → Prop) (hP : ∀ s op, aux_wm_J s → P s → P (s.step op)) (hc : ∀ s, P s → P (s.step .cref))
    (hr : ∀ s, P s → P (s.step .remove)) (ops : List WmOp) (s : Wm) (J : aux_wm_J s) (p : P s) (ho : wmOrderly ops = true) :
    aux_wm_J (s.run ops) ∧ P (s.run ops) := by
  fun_induction wmOrderly ops generalizing s with
  | case1 => exact ⟨J, p⟩
  | case2 ops ih => exact ih _ (aux_wm_cross J) (hc _ (hP _ _ J p)) ho
  | case3 => simp at ho
  | case4 ops ih => exact ih _ (aux_wm_giveup J) (hr _ (hP _ _ J p)) ho
  | case5 => simp at ho
  | case6 op ops h1 h2 h3 h4 ih =>
    exact ih _ (aux_wm_step J op (fun e => h2 e) (fun e => h4 e)) (hP _ _ J p) ho

theorem aux_wm_ind2 (P : Wm → Prop) (hP : ∀ s op, aux_wm_J s → P s → P (s.step op)) (ops : List WmOp) (s : Wm) (J : aux_wm_J s) (p : P s) (hs : s.slot = false) :
    aux_wm_J (s.run ops) ∧ P (s.run ops) := by
  induction ops generalizing s with
  | nil => exact ⟨J, p⟩
  | cons op ops ih => exact ih _ (aux_wm_user J hs op) (hP _ _ J p) (aux_wm_slot hs op)

theorem aux_wm_main (P : Wm → Prop) (hi : ∀ c, P (Wm.init c)) (hP : ∀ s op, aux_wm_J s → P s → P (s.step op)) (hc : ∀ s, P s → P (s.step .cref))
    (hr : ∀ s, P s → P (s.step .remove)) (closing : Bool) (ops : List WmOp) (h : closing = false ∨ wmOrderly ops = true) :
    aux_wm_J ((Wm.init closing).run ops) ∧ P ((Wm.init closing).run ops) := by
  rcases h with h | h
  · subst h; exact aux_wm_ind2 P hP ops _ (aux_wm_init _) (hi _) rfl
  · exact aux_wm_ind P hP hc hr ops _ (aux_wm_init _) (hi _) h

def aux_wm_inset : WmPc → Bool
  | .blocked | .popped _ | .draining _ => true
  | _ => false

def aux_wm_gone : WmPc → Nat
  | .popped (some .gone) => 1
  | _ => 0

def aux_wm_K (s : Wm) : Prop :=
  s.lost = [] → s.queueFault = false ∧ (s.hook ≠ .none → aux_wm_inset s.pc = true) ∧
    s.items.count .gone + (if s.hook = .taken then 1 else 0) + aux_wm_gone s.pc = (if aux_wm_inset s.pc = true ∧ s.hook ≠ .installed then 1 else 0) ∧
    ∀ r, s.pc = .draining r → s.hook ≠ .installed

theorem aux_wm_K_cref (s : Wm) (k : aux_wm_K s) : aux_wm_K (s.step .cref) := by
  simp only [Wm.step]
  split
  · simp only [Wm.ref, Wm.touch, aux_wm_K] at *
    split <;> exact k
  · exact k

theorem aux_wm_K_remove (s : Wm) (k : aux_wm_K s) : aux_wm_K (s.step .remove) := by
  simp only [Wm.step]
  split <;> exact k

theorem aux_wm_K_drop {s : Wm} (J : aux_wm_J s) (h : 1 ≤ s.rc) (ho : s.rc = 1 → aux_wm_inset s.pc = false) (k : aux_wm_K s) : aux_wm_K s.unref := by
  obtain ⟨d1, d2, d3, d4, d5, d6, d7, d⟩ := aux_wm_drop J h
  obtain ⟨e1, e2, e3, e4, e5, e6, e7, e8, e9, e10, e11, -⟩ := d
  intro hl
  rw [e11] at hl
  have k := k hl
  rw [e9, e1, e10]
  refine ⟨k.1, k.2.1, ?_, k.2.2.2⟩
  cases f : s.unref.freed
  · rw [(d6 f).1]; exact k.2.2.1
  · have := ho (by have := d2.1 f; omega)
    rw [this] at k ⊢
    have k3 := k.2.2.1
    simp at k3
    rw [(d7 f).1]
    simp [k3]

theorem aux_wm_K_step (s : Wm) (op : WmOp) (J : aux_wm_J s) (k : aux_wm_K s) : aux_wm_K (s.step op) := by
  have o := aux_wm_own01 s.pc
  have al := aux_wm_alive J
  have qal := aux_wm_qalive J
  have jrc := J.rc
  have ins : aux_wm_inset s.pc = true → aux_wm_own s.pc = 1 := by unfold aux_wm_inset aux_wm_own; grind
  have r01 : (if s.reader = .idle then 0 else 1 : Int) = 0 ∨ (if s.reader = .idle then 0 else 1 : Int) = 1 := by split <;> simp
  have nin : ¬ aux_wm_own s.pc = 1 → aux_wm_inset s.pc = false := by cases e : aux_wm_inset s.pc <;> simp_all
  cases op <;> simp only [Wm.step]
  case send =>
    split
    · simp only [Wm.ref, Wm.touch, aux_wm_K] at *
      split <;> exact k
    · exact k
  case wait =>
    split
    · rename_i e
      obtain ⟨e, -⟩ := e
      have a : s.freed = false ∧ s.qfreed = false := by wm_al e jrc al
      simp only [aux_wm_touch a.1, aux_wm_qtouch a.2]
      intro hl
      have k := k hl
      simp_all [aux_wm_inset, aux_wm_gone]
    · exact k
  case install =>
    split
    · intro hl
      have k := k hl
      simp_all [aux_wm_inset, aux_wm_gone]
    · exact k
  case pop =>
    split
    · rename_i e
      have a : s.freed = false ∧ s.qfreed = false := by wm_al e jrc al
      split
      · exact k
      · rename_i i rest ei
        simp only [aux_wm_touch a.1, aux_wm_qtouch a.2]
        intro hl
        have k := k hl
        cases i <;> simp_all [aux_wm_inset, aux_wm_gone] <;> omega
    · exact k
  case timeout =>
    split
    · rename_i e
      have a : s.freed = false ∧ s.qfreed = false := by wm_al e jrc al
      simp only [aux_wm_touch a.1, aux_wm_qtouch a.2]
      intro hl
      have k := k hl
      simp_all [aux_wm_inset, aux_wm_gone]
    · exact k
  case uninstall =>
    split
    · rename_i r e
      split
      · intro hl
        have k := k hl
        simp_all [aux_wm_inset, aux_wm_gone]
      · split
        · intro hl
          have k := k hl
          cases hk : s.hook <;> simp_all [aux_wm_inset, aux_wm_gone]
        · intro hl
          have k := k hl
          cases r with
          | none => simp_all [aux_wm_inset, aux_wm_gone]
          | some i => cases i <;> simp_all [aux_wm_inset, aux_wm_gone]
    · exact k
  case drain =>
    split
    · rename_i r e
      have a : s.freed = false ∧ s.qfreed = false := by wm_al e jrc al
      split
      · exact k
      · rename_i i rest ei
        simp only [aux_wm_qtouch a.2]
        cases i with
        | frame f => intro hl; simp [WmItem.frame?] at hl
        | gone =>
          intro hl
          simp [WmItem.frame?] at hl
          have k := k hl
          cases hk : s.hook <;> simp_all [aux_wm_inset, aux_wm_gone]
    · exact k
  case finish =>
    split
    · rename_i f e
      have a : s.freed = false ∧ s.qfreed = false := by wm_al e jrc al
      simp only [aux_wm_touch a.1]
      intro hl
      have k := k hl
      simp_all [aux_wm_inset, aux_wm_gone]
    · intro hl
      have k := k hl
      simp_all [aux_wm_inset, aux_wm_gone]
    · exact k
  case release =>
    split
    · rename_i f e
      have k := aux_wm_K_drop J (by simp [e, aux_wm_own] at jrc; omega) (fun _ => by simp [e, aux_wm_inset]) k
      have pe : s.unref.pc = .cleared f := by
        have := (aux_wm_drop J (by simp [e, aux_wm_own] at jrc; omega)).same.1
        rw [this, e]
      generalize s.unref = u at *
      intro hl
      have k := k hl
      simp_all [aux_wm_inset, aux_wm_gone]
    · exact k
  case leave =>
    split
    · rename_i f e
      have a : s.qfreed = false := qal (by rw [e]; rfl)
      simp only [aux_wm_qunref a]
      intro hl
      have k := k hl
      simp_all [aux_wm_inset, aux_wm_gone]
    · rename_i e
      have a : s.qfreed = false := qal (by rw [e]; rfl)
      simp only [aux_wm_qunref a]
      intro hl
      have k := k hl
      simp_all [aux_wm_inset, aux_wm_gone]
    · exact k
  case free =>
    split
    · rename_i e
      have k := aux_wm_K_drop J (by simp [e, aux_wm_own] at jrc; omega) (fun _ => by simp [e, aux_wm_inset]) k
      have pe : s.unref.pc = .ready := by
        have := (aux_wm_drop J (by simp [e, aux_wm_own] at jrc; omega)).same.1
        rw [this, e]
      generalize s.unref = u at *
      intro hl
      have k := k hl
      simp_all [aux_wm_inset, aux_wm_gone]
    · exact k
  case remove => split <;> exact k
  case peek =>
    split
    · simp only [Wm.touch]; split <;> exact k
    · exact k
  case take =>
    split
    · simp only [Wm.touch]; split <;> exact k
    · exact k
  case push =>
    split
    · rename_i e
      have a := al (by simp [e] at jrc; omega)
      simp only [Wm.pushFrame, aux_wm_touch a.1, aux_wm_qtouch a.2]
      intro hl
      have k := k hl
      simp_all
    · exact k
  case settle =>
    split
    · rename_i e
      exact aux_wm_K_drop J (by simp [e] at jrc; omega) (fun h => nin (by simp [e] at jrc; omega)) k
    · exact k
  case chanFree =>
    split
    · rename_i e
      exact aux_wm_K_drop J (by omega) (fun h => nin (by omega)) k
    · exact k
  case look => split <;> exact k
  case cref => exact aux_wm_K_cref s k
  case cpush =>
    split
    · rename_i e
      have a := al (by omega)
      simp only [Wm.pushFrame, aux_wm_touch a.1, aux_wm_qtouch a.2]
      intro hl
      have k := k hl
      simp_all
    · exact k
  case cunref =>
    split
    · rename_i e
      exact aux_wm_K_drop J (by omega) (fun h => nin (by omega)) k
    · exact k
  case breaks => exact k
  case hook =>
    split
    · intro hl
      have k := k hl
      simp_all
    · exact k
  case notify =>
    split
    · rename_i e
      intro hl
      have hl2 : s.lost = [] := by
        revert hl
        simp only [Wm.qtouch]; split <;> simp
      have k := k hl2
      have i1 := k.2.1 (by simp [e])
      have a : s.qfreed = false := qal (by revert i1; unfold aux_wm_inset aux_wm_wref; grind)
      simp only [aux_wm_qtouch a]
      simp_all
    · exact k

def aux_wm_held : WmPc → List Nat
  | .popped (some (.frame f)) | .draining (some (.frame f)) | .back (some (.frame f)) | .cleared f | .leaving (some f) => [f]
  | _ => []

def aux_wm_F (s : Wm) : Prop :=
  (s.given = [] ∨ s.pc = .done) ∧ s.given.length ≤ 1 ∧
  ∀ f, s.given.count f + s.released.count f + s.lost.count f + (s.items.filterMap WmItem.frame?).count f + (aux_wm_held s.pc).count f = if f < s.next then 1 else 0

theorem aux_wm_F_cref (s : Wm) (k : aux_wm_F s) : aux_wm_F (s.step .cref) := by
  simp only [Wm.step]
  split
  · simp only [Wm.ref, Wm.touch, aux_wm_F] at *
    split <;> exact k
  · exact k

theorem aux_wm_F_remove (s : Wm) (k : aux_wm_F s) : aux_wm_F (s.step .remove) := by
  simp only [Wm.step]
  split <;> exact k

theorem aux_wm_F_drop {s : Wm} (J : aux_wm_J s) (h : 1 ≤ s.rc) (k : aux_wm_F s) : aux_wm_F s.unref := by
  obtain ⟨d1, d2, d3, d4, d5, d6, d7, d⟩ := aux_wm_drop J h
  obtain ⟨e1, e2, e3, e4, e5, e6, e7, e8, e9, e10, e11, e12, e13, -⟩ := d
  obtain ⟨k1, k2, k3⟩ := k
  refine ⟨by rw [e12, e1]; exact k1, by rw [e12]; exact k2, fun f => ?_⟩
  have k3 := k3 f
  rw [e11, e12, e13, e1]
  cases g : s.unref.freed
  · rw [(d6 g).1, (d6 g).2]; exact k3
  · rw [(d7 g).1, (d7 g).2]
    simp [List.count_append]
    omega

theorem aux_wm_fm_gone (l : List WmItem) : (WmItem.gone :: l).filterMap WmItem.frame? = l.filterMap WmItem.frame? := rfl

theorem aux_wm_fm_frame (f : Nat) (l : List WmItem) : (WmItem.frame f :: l).filterMap WmItem.frame? = f :: l.filterMap WmItem.frame? := rfl

theorem aux_wm_F_step (s : Wm) (op : WmOp) (J : aux_wm_J s) (k : aux_wm_F s) : aux_wm_F (s.step op) := by
  have o := aux_wm_own01 s.pc
  have jrc := J.rc
  have r01 : (if s.reader = .idle then 0 else 1 : Int) = 0 ∨ (if s.reader = .idle then 0 else 1 : Int) = 1 := by split <;> simp
  cases op <;> simp only [Wm.step]
  case send =>
    split
    · simp only [Wm.ref, Wm.touch, aux_wm_F] at *
      split <;> exact k
    · exact k
  case wait =>
    split
    · simp only [Wm.touch, Wm.qtouch, aux_wm_F] at *
      split <;> split <;> simp_all [aux_wm_held] <;> grind [aux_wm_fm_gone, aux_wm_fm_frame]
    · exact k
  case install =>
    split
    · simp_all [aux_wm_F, aux_wm_held] <;> grind [aux_wm_fm_gone, aux_wm_fm_frame]
    · exact k
  case pop =>
    split
    · split
      · exact k
      · rename_i i rest ei
        simp only [Wm.touch, Wm.qtouch, aux_wm_F] at *
        split <;> split <;> cases i <;> simp_all [aux_wm_held, WmItem.frame?, List.count_cons] <;> grind [aux_wm_fm_gone, aux_wm_fm_frame]
    · exact k
  case timeout =>
    split
    · simp only [Wm.touch, Wm.qtouch, aux_wm_F] at *
      split <;> split <;> simp_all [aux_wm_held] <;> grind [aux_wm_fm_gone, aux_wm_fm_frame]
    · exact k
  case uninstall =>
    split
    · rename_i r e
      have : aux_wm_held (.back r) = aux_wm_held (.popped r) ∧ aux_wm_held (.draining r) = aux_wm_held (.popped r) := by
        rcases r with _ | _ | _ <;> simp [aux_wm_held]
      split
      · simp_all [aux_wm_F] <;> grind [aux_wm_fm_gone, aux_wm_fm_frame]
      · split
        · simp_all [aux_wm_F] <;> grind [aux_wm_fm_gone, aux_wm_fm_frame]
        · simp_all [aux_wm_F] <;> grind [aux_wm_fm_gone, aux_wm_fm_frame]
    · exact k
  case drain =>
    split
    · rename_i r e
      have : aux_wm_held (.back r) = aux_wm_held (.draining r) := by
        rcases r with _ | _ | _ <;> simp [aux_wm_held]
      split
      · exact k
      · rename_i i rest ei
        simp only [Wm.qtouch, aux_wm_F] at *
        split <;> cases i <;> simp_all [WmItem.frame?, List.count_cons, List.count_append] <;> grind [aux_wm_fm_gone, aux_wm_fm_frame]
    · exact k
  case finish =>
    split
    · simp only [Wm.touch, aux_wm_F] at *
      split <;> simp_all [aux_wm_held] <;> grind [aux_wm_fm_gone, aux_wm_fm_frame]
    · rename_i r hr e
      have : aux_wm_held (.back r) = [] := by
        rcases r with _ | _ | _ <;> simp [aux_wm_held] at hr ⊢
      simp_all [aux_wm_F, aux_wm_held] <;> grind [aux_wm_fm_gone, aux_wm_fm_frame]
    · exact k
  case release =>
    split
    · rename_i f e
      have k := aux_wm_F_drop J (by simp [e, aux_wm_own] at jrc; omega) k
      have pe : s.unref.pc = .cleared f := by
        have := (aux_wm_drop J (by simp [e, aux_wm_own] at jrc; omega)).same.1
        rw [this, e]
      generalize s.unref = u at *
      simp_all [aux_wm_F, aux_wm_held] <;> grind [aux_wm_fm_gone, aux_wm_fm_frame]
    · exact k
  case leave =>
    split
    · rename_i f e
      have q : s.qunref = { s with qrc := s.qunref.qrc, qfreed := s.qunref.qfreed, queueFault := s.qunref.queueFault } := by
        simp only [Wm.qunref, Wm.qtouch]; split <;> split <;> simp
      rw [q]
      simp_all [aux_wm_F, aux_wm_held] <;> grind [aux_wm_fm_gone, aux_wm_fm_frame]
    · rename_i e
      have q : s.qunref = { s with qrc := s.qunref.qrc, qfreed := s.qunref.qfreed, queueFault := s.qunref.queueFault } := by
        simp only [Wm.qunref, Wm.qtouch]; split <;> split <;> simp
      rw [q]
      simp_all [aux_wm_F, aux_wm_held] <;> grind [aux_wm_fm_gone, aux_wm_fm_frame]
    · exact k
  case free =>
    split
    · rename_i e
      have k := aux_wm_F_drop J (by simp [e, aux_wm_own] at jrc; omega) k
      have pe : s.unref.pc = .ready := by
        have := (aux_wm_drop J (by simp [e, aux_wm_own] at jrc; omega)).same.1
        rw [this, e]
      generalize s.unref = u at *
      simp_all [aux_wm_F, aux_wm_held] <;> grind [aux_wm_fm_gone, aux_wm_fm_frame]
    · exact k
  case remove => split <;> exact k
  case peek =>
    split
    · simp only [Wm.touch]; split <;> exact k
    · exact k
  case take =>
    split
    · simp only [Wm.touch]; split <;> exact k
    · exact k
  case push =>
    split
    · simp only [Wm.pushFrame, Wm.touch, Wm.qtouch, aux_wm_F] at *
      split <;> split <;> simp_all [WmItem.frame?, List.count_append, List.count_cons] <;> grind [aux_wm_fm_gone, aux_wm_fm_frame]
    · exact k
  case settle =>
    split
    · rename_i e
      exact aux_wm_F_drop J (by simp [e] at jrc; omega) k
    · exact k
  case chanFree =>
    split
    · exact aux_wm_F_drop J (by omega) k
    · exact k
  case look => split <;> exact k
  case cref => exact aux_wm_F_cref s k
  case cpush =>
    split
    · simp only [Wm.pushFrame, Wm.touch, Wm.qtouch, aux_wm_F] at *
      split <;> split <;> simp_all [WmItem.frame?, List.count_append, List.count_cons] <;> grind [aux_wm_fm_gone, aux_wm_fm_frame]
    · exact k
  case cunref =>
    split
    · exact aux_wm_F_drop J (by omega) k
    · exact k
  case breaks => exact k
  case hook => split <;> exact k
  case notify =>
    split
    · simp only [Wm.qtouch, aux_wm_F] at *
      split <;> simp_all <;> grind [aux_wm_fm_gone, aux_wm_fm_frame]
    · exact k

theorem aux_wm_all (closing : Bool) (ops : List WmOp) (h : closing = false ∨ wmOrderly ops = true) :
    aux_wm_J ((Wm.init closing).run ops) ∧ aux_wm_K ((Wm.init closing).run ops) ∧ aux_wm_F ((Wm.init closing).run ops) := by
  have := aux_wm_main (fun s => aux_wm_K s ∧ aux_wm_F s)
    (fun c => ⟨by simp [aux_wm_K, Wm.init, aux_wm_inset, aux_wm_gone], by simp [aux_wm_F, Wm.init, aux_wm_held]⟩)
    (fun s op J p => ⟨aux_wm_K_step s op J p.1, aux_wm_F_step s op J p.2⟩)
    (fun s p => ⟨aux_wm_K_cref s p.1, aux_wm_F_cref s p.2⟩) (fun s p => ⟨aux_wm_K_remove s p.1, aux_wm_F_remove s p.2⟩) closing ops h
  exact this

theorem aux_wm_freed {s : Wm} (J : aux_wm_J s) :
    s.freed = true ↔ wmGaveUp s ∧ s.waiting = 0 ∧ s.reader = .idle ∧ s.refd = 0 ∧ s.pushed = 0 := by
  have o : aux_wm_own s.pc = 0 ↔ wmGaveUp s := by unfold aux_wm_own wmGaveUp; grind
  have o2 := aux_wm_own01 s.pc
  have jrc := J.rc
  rw [J.freed, ← o]
  split at jrc <;> rename_i e <;> simp [e] <;> omega

theorem aux_wm_qfreed {s : Wm} (J : aux_wm_J s) : s.qfreed = true ↔ s.freed = true ∧ ¬ wmInCall s := by
  have o : aux_wm_wref s.pc = 0 ↔ ¬ wmInCall s := by unfold aux_wm_wref wmInCall; grind
  have o2 := aux_wm_wref01 s.pc
  have jq := J.qrc
  rw [J.qfreed, ← o]
  split at jq <;> rename_i e <;> simp [e] <;> omega

/-- C100 in full: in every interleaving neither the object nor its queue is used after its release, and when everybody is done both are
released, and each frame that was delivered was given to the caller or released, once. -/
def C100_statement : Prop :=
  ∀ (closing : Bool) (ops : List WmOp), ((Wm.init closing).run ops).objFault = false ∧ ((Wm.init closing).run ops).queueFault = false ∧
    (wmQuiet ((Wm.init closing).run ops) → ((Wm.init closing).run ops).freed = true ∧ ((Wm.init closing).run ops).qfreed = true ∧
      ∀ f, f < ((Wm.init closing).run ops).next → (((Wm.init closing).run ops).given ++ ((Wm.init closing).run ops).released).count f = 1)

/-- An object created by the application is not used after its release; it is released as soon as the caller gave it up, and it is neither
expecting a reply nor having one delivered, and not before. -/
theorem C100_object (ops : List WmOp) (s : Wm) (hs : s = (Wm.init false).run ops) :
    s.objFault = false ∧ (s.freed = true ↔ wmGaveUp s ∧ s.waiting = 0 ∧ s.reader = .idle ∧ s.refd = 0 ∧ s.pushed = 0) := by
  subst hs
  obtain ⟨J, -, -⟩ := aux_wm_all false ops (.inl rfl)
  exact ⟨J.nofault, aux_wm_freed J⟩

example : ((Wm.init false).run [.send, .wait, .install, .take, .push, .pop, .uninstall, .finish, .release]).freed = false ∧
    ((Wm.init false).run [.send, .wait, .install, .take, .push, .pop, .uninstall, .finish, .release, .settle]).freed = true := by decide

/-- The same for an object used to close a channel. What is missing: the channel gives the object to a thread that answers a close message
without a reference, so that it may be released before the thread has one; and it keeps the object when the close failed. -/
theorem C100_object_partial (ops : List WmOp) (ho : wmOrderly ops = true) (s : Wm) (hs : s = (Wm.init true).run ops) :
    s.objFault = false ∧ (s.freed = true ↔ wmGaveUp s ∧ s.waiting = 0 ∧ s.reader = .idle ∧ s.refd = 0 ∧ s.pushed = 0) := by
  subst hs
  obtain ⟨J, -, -⟩ := aux_wm_all true ops (.inr ho)
  exact ⟨J.nofault, aux_wm_freed J⟩

example : wmOrderly [.send, .wait, .install, .look, .cref, .take, .push, .cpush, .settle, .pop, .uninstall, .finish, .release, .leave, .remove] = true ∧
    ((Wm.init true).run [.send, .wait, .install, .look, .cref, .take, .push, .cpush, .settle, .pop, .uninstall, .finish, .release, .leave, .remove]).freed = false ∧
    ((Wm.init true).run [.send, .wait, .install, .look, .cref, .take, .push, .cpush, .settle, .pop, .uninstall, .finish, .release, .leave, .remove, .cunref]).released = [1] := by
  decide

/-- The queue is released when the object is and the caller is not waiting. -/
theorem C100_queue (closing : Bool) (ops : List WmOp) (h : closing = false ∨ wmOrderly ops = true) (s : Wm) (hs : s = (Wm.init closing).run ops) :
    s.qfreed = true ↔ s.freed = true ∧ ¬ wmInCall s := by
  subst hs
  exact aux_wm_qfreed (aux_wm_all closing ops h).1

example : ((Wm.init false).run [.send, .wait, .install, .take, .push, .settle, .pop, .uninstall, .finish, .release]).freed = true ∧
    ((Wm.init false).run [.send, .wait, .install, .take, .push, .settle, .pop, .uninstall, .finish, .release]).qfreed = false ∧
    ((Wm.init false).run [.send, .wait, .install, .take, .push, .settle, .pop, .uninstall, .finish, .release, .leave]).qfreed = true := by decide

/-- At most one frame is given to the caller, none is given or released twice, and when everybody is done each was given, released, or
dropped by the caller that waited for the handler of the broken connection. -/
theorem C100_frames (closing : Bool) (ops : List WmOp) (h : closing = false ∨ wmOrderly ops = true) (s : Wm) (hs : s = (Wm.init closing).run ops) :
    s.given.length ≤ 1 ∧ (∀ f, (s.given ++ s.released ++ s.lost).count f ≤ 1) ∧
    (wmQuiet s → ∀ f, f < s.next → (s.given ++ s.released ++ s.lost).count f = 1) := by
  subst hs
  obtain ⟨J, -, F⟩ := aux_wm_all closing ops h
  generalize (Wm.init closing).run ops = s at *
  refine ⟨F.2.1, fun f => ?_, fun q f hf => ?_⟩
  · have := F.2.2 f
    simp only [List.count_append]
    split at this <;> omega
  · have := F.2.2 f
    obtain ⟨q1, q2, q3, q4, q5, q6, q7⟩ := q
    have e := J.empty ((aux_wm_freed J).2 ⟨.inl q1, q2, q3, q5, q6⟩)
    rw [e, q1, if_pos hf] at this
    simp only [List.count_append]
    simpa [aux_wm_held] using this

example : wmQuiet ((Wm.init false).run [.send, .wait, .install, .timeout, .uninstall, .finish, .leave, .free, .take, .push, .settle]) ∧
    ((Wm.init false).run [.send, .wait, .install, .timeout, .uninstall, .finish, .leave, .free, .take, .push, .settle]).released = [0] := by
  simp [wmQuiet]; decide

/-- All of C100, as long as no frame was dropped while waiting for the handler of the broken connection. -/
theorem C100_partial (closing : Bool) (ops : List WmOp) (h : closing = false ∨ wmOrderly ops = true) (s : Wm) (hs : s = (Wm.init closing).run ops)
    (hl : s.lost = []) :
    s.objFault = false ∧ s.queueFault = false ∧
    (wmQuiet s → s.freed = true ∧ s.qfreed = true ∧ ∀ f, f < s.next → (s.given ++ s.released).count f = 1) := by
  have fr := C100_frames closing ops h s hs
  subst hs
  obtain ⟨J, K, -⟩ := aux_wm_all closing ops h
  refine ⟨J.nofault, (K hl).1, fun q => ?_⟩
  have e := (aux_wm_freed J).2 ⟨.inl q.1, q.2.1, q.2.2.1, q.2.2.2.2.1, q.2.2.2.2.2.1⟩
  refine ⟨e, (aux_wm_qfreed J).2 ⟨e, fun i => i.2 q.1⟩, fun f hf => ?_⟩
  have := fr.2.2 q f hf
  rw [hl] at this
  simpa using this

example : ((Wm.init false).run [.send, .wait, .install, .breaks, .hook, .timeout, .uninstall, .notify, .drain, .finish, .leave, .free, .chanFree]).lost = [] ∧
    ((Wm.init false).run [.send, .wait, .install, .breaks, .hook, .timeout, .uninstall, .notify, .drain, .finish, .leave, .free, .chanFree]).qfreed = true := by
  decide

theorem aux_wm_t1 (s : Wm) : s.touch.pc = s.pc ∧ s.touch.hook = s.hook ∧ s.touch.lost = s.lost := by
  unfold Wm.touch; split <;> simp

theorem aux_wm_t2 (s : Wm) : s.qtouch.pc = s.pc ∧ s.qtouch.hook = s.hook ∧ s.qtouch.lost = s.lost := by
  unfold Wm.qtouch; split <;> simp

theorem aux_wm_t3 (s : Wm) : s.qunref.pc = s.pc ∧ s.qunref.hook = s.hook ∧ s.qunref.lost = s.lost := by
  unfold Wm.qunref; dsimp only; split <;> simp [aux_wm_t2]

theorem aux_wm_t4 (s : Wm) : s.unref.pc = s.pc ∧ s.unref.hook = s.hook ∧ s.unref.lost = s.lost := by
  unfold Wm.unref; dsimp only; split <;> simp [aux_wm_t1, aux_wm_t3]

theorem aux_wm_t5 (s : Wm) : s.ref.pc = s.pc ∧ s.ref.hook = s.hook ∧ s.ref.lost = s.lost := by
  unfold Wm.ref; simp [aux_wm_t1]

theorem aux_wm_t6 (s : Wm) : s.pushFrame.pc = s.pc ∧ s.pushFrame.hook = s.hook ∧ s.pushFrame.lost = s.lost := by
  unfold Wm.pushFrame; simp [aux_wm_t1, aux_wm_t2]

/-- No frame is dropped if the connection is not broken while the caller waits. -/
theorem C100_kept (closing : Bool) (ops : List WmOp) (hb : .hook ∉ ops) : ((Wm.init closing).run ops).lost = [] := by
  have key : ∀ (ops : List WmOp) (s : Wm), .hook ∉ ops → s.lost = [] → s.hook ≠ .taken →
      ((s.pc = .blocked ∨ ∃ r, s.pc = .popped r) → s.hook = .installed) → (∀ r, s.pc ≠ .draining r) → (s.run ops).lost = [] := by
    intro ops
    induction ops with
    | nil => intro s _ h _ _ _; exact h
    | cons op ops ih =>
      intro s hb h1 h2 h3 h4
      simp only [List.mem_cons, not_or] at hb
      apply ih _ hb.2 <;> clear ih
      all_goals
        cases op <;> simp at hb <;> simp only [Wm.step] <;> (repeat' split) <;>
          (try simp only [aux_wm_t1, aux_wm_t2, aux_wm_t3, aux_wm_t4, aux_wm_t5, aux_wm_t6]) <;> grind
  exact key ops _ hb rfl (by simp [Wm.init]) (by simp [Wm.init]) (by simp [Wm.init])

example : ((Wm.init false).run [.send, .wait, .install, .breaks, .take, .push, .settle, .pop, .uninstall, .finish, .release, .leave]).given = [0] := by decide

/-- The peer closes a channel while we close it. The thread that answers gets the object from the channel; our reply comes, and the closing
thread releases the object; then the first thread uses it. -/
theorem C100_crossing_race :
    ((Wm.init true).run [.send, .wait, .install, .look, .take, .push, .settle, .pop, .uninstall, .finish, .release, .leave, .remove]).freed = true ∧
    ((Wm.init true).run [.send, .wait, .install, .look, .take, .push, .settle, .pop, .uninstall, .finish, .release, .leave, .remove, .cref]).objFault = true := by
  decide

/-- The close message cannot be sent: the object is released, but the channel still has it, and a close message of the peer, at any time
later, uses it. -/
theorem C100_send_failed :
    ((Wm.init true).run [.free]).freed = true ∧ ((Wm.init true).run [.free]).slot = true ∧ ((Wm.init true).run [.free, .look, .cref]).objFault = true := by
  decide

/-- The time is out, then the reply comes, then the connection breaks: the caller takes the reply for the signal of the handler, drops it,
and releases the queue; the handler then pushes its signal on it. -/
theorem C100_late_handler :
    ((Wm.init false).run [.send, .wait, .install, .timeout, .take, .push, .settle, .breaks, .hook, .uninstall, .drain, .finish, .leave, .free, .notify]).queueFault = true := by
  decide

/-- Even if the handler comes first the reply is never released. -/
theorem C100_leak :
    wmQuiet ((Wm.init false).run [.send, .wait, .install, .timeout, .take, .push, .settle, .breaks, .hook, .uninstall, .drain, .notify, .finish, .leave, .free]) ∧
    ((Wm.init false).run [.send, .wait, .install, .timeout, .take, .push, .settle, .breaks, .hook, .uninstall, .drain, .notify, .finish, .leave, .free]).next = 1 ∧
    ((Wm.init false).run [.send, .wait, .install, .timeout, .take, .push, .settle, .breaks, .hook, .uninstall, .drain, .notify, .finish, .leave, .free]).given = [] ∧
    ((Wm.init false).run [.send, .wait, .install, .timeout, .take, .push, .settle, .breaks, .hook, .uninstall, .drain, .notify, .finish, .leave, .free]).released = [] := by
  simp [wmQuiet]; decide

theorem C100_statement_false : ¬ C100_statement := by
  intro h
  have := (h true [.free, .look, .cref]).1
  revert this
  decide

end Verif.Props
