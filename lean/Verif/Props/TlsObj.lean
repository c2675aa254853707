import Verif.Spec.TlsObj
/-!
# C134: what a TLS negotiation uses, reports and gives back
-/
namespace Verif.Props
open Verif.Model Verif.Spec

def aux_tb_ssl : Option (Nat × Nat) → List Nat
  | some (i, c) => [i, c]
  | none => []

/-- What the data of a connection refers to. -/
def aux_tb_slots (s : Tb) : List Nat :=
  aux_tb_ssl s.ssl ++ s.ctx.toList ++ s.mutex.toList ++ (s.cert.map (·.1)).toList ++ (s.key.map (·.1)).toList

/-- `w`: held by the function that runs; `l`: lost. -/
structure aux_tb_Inv (w l : List Nat) (s : Tb) : Prop where
  bad : s.bad = false
  refs : ∀ i, s.refs i = (aux_tb_slots s ++ w ++ l).count i
  fresh : ∀ i, s.ids ≤ i → s.refs i = 0

theorem aux_tb_set (f : Nat → Nat) (i v k : Nat) : tbSet f i v k = if k = i then v else f k := rfl

theorem aux_tb_alloc {w l : List Nat} {s : Tb} (h : aux_tb_Inv w l s) : aux_tb_Inv (s.ids :: w) l s.alloc := by
  obtain ⟨h1, h2, h3⟩ := h
  refine ⟨h1, fun i => ?_, fun i hi => ?_⟩
  · have a := h2 i; have b := h3 i
    simp only [Tb.alloc, aux_tb_set, aux_tb_slots, List.count_append, List.count_cons] at a b ⊢
    by_cases e : i = s.ids
    · subst e; simp at b ⊢; omega
    · have : s.ids ≠ i := fun x => e x.symm
      simp [e, this] at a ⊢; omega
  · simp only [Tb.alloc, aux_tb_set] at hi ⊢
    rw [if_neg (by omega)]; exact h3 i (by omega)

theorem aux_tb_hold {w l : List Nat} {s : Tb} {c : Nat} (h : aux_tb_Inv w l s) (hc : c < s.ids) : aux_tb_Inv (c :: w) l (s.hold c) := by
  obtain ⟨h1, h2, h3⟩ := h
  refine ⟨h1, fun i => ?_, fun i hi => ?_⟩
  · have a := h2 i
    simp only [Tb.hold, aux_tb_set, aux_tb_slots, List.count_append, List.count_cons] at a ⊢
    by_cases e : i = c
    · subst e; simp; omega
    · have : c ≠ i := fun x => e x.symm
      simp [e, this] at a ⊢; omega
  · simp only [Tb.hold, aux_tb_set] at hi ⊢
    rw [if_neg (by omega)]; exact h3 i hi

theorem aux_tb_lt {w l : List Nat} {s : Tb} {c : Nat} (h : aux_tb_Inv w l s) (hc : c ∈ aux_tb_slots s ++ w ++ l) : c < s.ids := by
  rcases Nat.lt_or_ge c s.ids with g | g
  · exact g
  · have := h.fresh c g
    rw [h.refs] at this
    exact absurd hc (List.count_eq_zero.mp this)

/-- One reference is given back. -/
theorem aux_tb_drop {w l : List Nat} {s : Tb} {c : Nat} (h : aux_tb_Inv (c :: w) l s) : aux_tb_Inv w l (s.drop c) := by
  obtain ⟨h1, h2, h3⟩ := h
  have hc : s.refs c ≠ 0 := by rw [h2]; simp [List.count_append]
  simp only [Tb.drop, if_neg hc]
  refine ⟨h1, fun i => ?_, fun i hi => ?_⟩
  · have a := h2 i
    simp only [aux_tb_set, aux_tb_slots, List.count_append, List.count_cons] at a ⊢
    by_cases e : i = c
    · subst e; simp at a ⊢; omega
    · have : c ≠ i := fun x => e x.symm
      simp [e, this] at a ⊢; omega
  · simp only [aux_tb_set]
    split
    · rename_i e; subst e; exact absurd (h3 i hi) hc
    · exact h3 i hi

theorem aux_tb_perm {w w' l l' : List Nat} {s s' : Tb} (h : aux_tb_Inv w l s) (hb : s'.bad = s.bad) (hr : s'.refs = s.refs) (hi : s'.ids = s.ids)
    (hc : ∀ i, (aux_tb_slots s' ++ w' ++ l').count i = (aux_tb_slots s ++ w ++ l).count i) : aux_tb_Inv w' l' s' :=
  ⟨by rw [hb]; exact h.bad, fun i => by rw [hr, hc]; exact h.refs i, fun i g => by rw [hr]; exact h.fresh i (by rw [← hi]; exact g)⟩

theorem aux_tb_drop_fields (s : Tb) (c : Nat) : (s.drop c).ids = s.ids ∧ (s.drop c).ssl = s.ssl ∧ (s.drop c).ctx = s.ctx ∧
    (s.drop c).mutex = s.mutex ∧ (s.drop c).cert = s.cert ∧ (s.drop c).key = s.key ∧ (s.drop c).own = s.own ∧ (s.drop c).dflt = s.dflt ∧
    (s.drop c).phase = s.phase ∧ (s.drop c).socket = s.socket ∧ (s.drop c).closes = s.closes ∧ (s.drop c).asked = s.asked ∧
    (s.drop c).used = s.used ∧ (s.drop c).reports = s.reports := by
  unfold Tb.drop; split <;> simp

theorem aux_tb_putSsl {w l : List Nat} {s : Tb} {v : Option (Nat × Nat)}
    (h : aux_tb_Inv (aux_tb_ssl v ++ w) l s) : aux_tb_Inv w l { s.dropSsl s.ssl with ssl := v } := by
  cases e : s.ssl with
  | none =>
    refine aux_tb_perm h rfl rfl rfl fun i => ?_
    simp [aux_tb_slots, aux_tb_ssl, Tb.dropSsl, e, List.count_append] <;> omega
  | some x =>
    obtain ⟨i, c⟩ := x
    have h' : aux_tb_Inv (i :: c :: (aux_tb_ssl v ++ w)) l { s with ssl := none } := by
      refine aux_tb_perm h rfl rfl rfl fun k => ?_
      simp [aux_tb_slots, aux_tb_ssl, e, List.count_append, List.count_cons] <;> omega
    have h2 := aux_tb_drop (aux_tb_drop h')
    have e1 : (s.dropSsl (some (i, c))) = { (({ s with ssl := none } : Tb).drop i).drop c with ssl := s.ssl } := by
      simp only [Tb.dropSsl, Tb.drop]
      repeat' split
      all_goals simp_all
    rw [e1]
    refine aux_tb_perm h2 rfl rfl rfl fun k => ?_
    have f1 := aux_tb_drop_fields { s with ssl := none } i
    have f2 := aux_tb_drop_fields (({ s with ssl := none } : Tb).drop i) c
    simp [aux_tb_slots, aux_tb_ssl, f1, f2, List.count_append] <;> omega

theorem aux_tb_putCtx {w l : List Nat} {s : Tb} {v : Option Nat} (h : aux_tb_Inv (v.toList ++ w) l s) :
    aux_tb_Inv w l { s.dropOpt s.ctx with ctx := v } := by
  cases e : s.ctx with
  | none =>
    refine aux_tb_perm h rfl rfl rfl fun i => ?_
    simp [aux_tb_slots, aux_tb_ssl, Tb.dropOpt, e, List.count_append] <;> omega
  | some c =>
    have h' : aux_tb_Inv (c :: (v.toList ++ w)) l { s with ctx := none } := by
      refine aux_tb_perm h rfl rfl rfl fun k => ?_
      simp [aux_tb_slots, aux_tb_ssl, e, List.count_append, List.count_cons] <;> omega
    have h2 := aux_tb_drop h'
    have e1 : (s.dropOpt (some c)) = { ({ s with ctx := none } : Tb).drop c with ctx := s.ctx } := by
      simp only [Tb.dropOpt, Tb.drop]
      repeat' split
      all_goals simp_all
    rw [e1]
    refine aux_tb_perm h2 rfl rfl rfl fun k => ?_
    have f1 := aux_tb_drop_fields { s with ctx := none } c
    simp [aux_tb_slots, aux_tb_ssl, f1, List.count_append] <;> omega

theorem aux_tb_putMutex {w l : List Nat} {s : Tb} {v : Option Nat} (h : aux_tb_Inv (v.toList ++ w) l s) :
    aux_tb_Inv w l { s.dropOpt s.mutex with mutex := v } := by
  cases e : s.mutex with
  | none =>
    refine aux_tb_perm h rfl rfl rfl fun i => ?_
    simp [aux_tb_slots, aux_tb_ssl, Tb.dropOpt, e, List.count_append] <;> omega
  | some c =>
    have h' : aux_tb_Inv (c :: (v.toList ++ w)) l { s with mutex := none } := by
      refine aux_tb_perm h rfl rfl rfl fun k => ?_
      simp [aux_tb_slots, aux_tb_ssl, e, List.count_append, List.count_cons] <;> omega
    have h2 := aux_tb_drop h'
    have e1 : (s.dropOpt (some c)) = { ({ s with mutex := none } : Tb).drop c with mutex := s.mutex } := by
      simp only [Tb.dropOpt, Tb.drop]
      repeat' split
      all_goals simp_all
    rw [e1]
    refine aux_tb_perm h2 rfl rfl rfl fun k => ?_
    have f1 := aux_tb_drop_fields { s with mutex := none } c
    simp [aux_tb_slots, aux_tb_ssl, f1, List.count_append] <;> omega

theorem aux_tb_putCert {w l : List Nat} {s : Tb} {v : Option (Nat × Nat)} (h : aux_tb_Inv ((v.map (·.1)).toList ++ w) l s) :
    aux_tb_Inv w l { s.dropFile s.cert with cert := v } := by
  cases e : s.cert with
  | none =>
    refine aux_tb_perm h rfl rfl rfl fun i => ?_
    simp [aux_tb_slots, aux_tb_ssl, Tb.dropFile, e, List.count_append] <;> omega
  | some x =>
    obtain ⟨c, n⟩ := x
    have h' : aux_tb_Inv (c :: ((v.map (·.1)).toList ++ w)) l { s with cert := none } := by
      refine aux_tb_perm h rfl rfl rfl fun k => ?_
      simp [aux_tb_slots, aux_tb_ssl, e, List.count_append, List.count_cons] <;> omega
    have h2 := aux_tb_drop h'
    have e1 : (s.dropFile (some (c, n))) = { ({ s with cert := none } : Tb).drop c with cert := s.cert } := by
      simp only [Tb.dropFile, Tb.drop]
      repeat' split
      all_goals simp_all
    rw [e1]
    refine aux_tb_perm h2 rfl rfl rfl fun k => ?_
    have f1 := aux_tb_drop_fields { s with cert := none } c
    simp [aux_tb_slots, aux_tb_ssl, f1, List.count_append] <;> omega

theorem aux_tb_putKey {w l : List Nat} {s : Tb} {v : Option (Nat × Nat)} (h : aux_tb_Inv ((v.map (·.1)).toList ++ w) l s) :
    aux_tb_Inv w l { s.dropFile s.key with key := v } := by
  cases e : s.key with
  | none =>
    refine aux_tb_perm h rfl rfl rfl fun i => ?_
    simp [aux_tb_slots, aux_tb_ssl, Tb.dropFile, e, List.count_append] <;> omega
  | some x =>
    obtain ⟨c, n⟩ := x
    have h' : aux_tb_Inv (c :: ((v.map (·.1)).toList ++ w)) l { s with key := none } := by
      refine aux_tb_perm h rfl rfl rfl fun k => ?_
      simp [aux_tb_slots, aux_tb_ssl, e, List.count_append, List.count_cons] <;> omega
    have h2 := aux_tb_drop h'
    have e1 : (s.dropFile (some (c, n))) = { ({ s with key := none } : Tb).drop c with key := s.key } := by
      simp only [Tb.dropFile, Tb.drop]
      repeat' split
      all_goals simp_all
    rw [e1]
    refine aux_tb_perm h2 rfl rfl rfl fun k => ?_
    have f1 := aux_tb_drop_fields { s with key := none } c
    simp [aux_tb_slots, aux_tb_ssl, f1, List.count_append] <;> omega

theorem aux_tb_clear {w l : List Nat} {s : Tb} (h : aux_tb_Inv w l s) : aux_tb_Inv w l s.clear := by
  unfold Tb.clear
  exact aux_tb_putKey (v := none) (aux_tb_putCert (v := none) (aux_tb_putMutex (v := none) (aux_tb_putCtx (v := none)
    (aux_tb_putSsl (v := none) h))))

theorem aux_tb_common {w l : List Nat} {s : Tb} {i c : Nat} (h : aux_tb_Inv (c :: i :: c :: w) l s) : aux_tb_Inv w l (s.common i c) := by
  unfold Tb.common
  refine aux_tb_putMutex (v := some _) (aux_tb_alloc (aux_tb_putCtx (v := some c) (aux_tb_putSsl (v := some (i, c)) ?_)))
  refine aux_tb_perm h rfl rfl rfl fun k => ?_
  simp [aux_tb_ssl, List.count_append, List.count_cons] <;> omega

/-- Fields that do not matter here may change. -/
theorem aux_tb_same {w l : List Nat} {s s' : Tb} (h : aux_tb_Inv w l s) (hb : s'.bad = s.bad) (hr : s'.refs = s.refs) (hi : s'.ids = s.ids)
    (h1 : s'.ssl = s.ssl) (h2 : s'.ctx = s.ctx) (h3 : s'.mutex = s.mutex) (h4 : s'.cert = s.cert) (h5 : s'.key = s.key) : aux_tb_Inv w l s' :=
  aux_tb_perm h hb hr hi fun i => by simp [aux_tb_slots, aux_tb_ssl, h1, h2, h3, h4, h5]

theorem aux_tb_lose {w l : List Nat} {s : Tb} (h : aux_tb_Inv w l s) : aux_tb_Inv [] (w ++ l) s :=
  aux_tb_perm h rfl rfl rfl fun i => by simp [aux_tb_ssl, List.count_append] <;> omega

theorem aux_tb_down {w l : List Nat} {s : Tb} (h : aux_tb_Inv w l s) : aux_tb_Inv w l s.down := aux_tb_same h rfl rfl rfl rfl rfl rfl rfl rfl

theorem aux_tb_shut {w l : List Nat} {s : Tb} (h : aux_tb_Inv w l s) : aux_tb_Inv w l s.shut := aux_tb_same h rfl rfl rfl rfl rfl rfl rfl rfl

theorem aux_tb_report {w l : List Nat} {s : Tb} (h : aux_tb_Inv w l s) : aux_tb_Inv w l s.report := aux_tb_same h rfl rfl rfl rfl rfl rfl rfl rfl

theorem aux_tb_asks {w l : List Nat} {s : Tb} (h : aux_tb_Inv w l s) : aux_tb_Inv w l s.ask := by
  unfold Tb.ask
  split
  · exact aux_tb_same h rfl rfl rfl rfl rfl rfl rfl rfl
  · exact h

theorem aux_tb_startInv {l : List Nat} {s : Tb} (h : aux_tb_Inv [] l s) (r a : Bool) (cert key : Option Nat) :
    ∃ l', aux_tb_Inv [] l' (s.start r a cert key) ∧ (tbTidy (.start r a cert key) = true → l' = l) := by
  unfold Tb.start
  split
  · exact ⟨l, h, fun _ => rfl⟩
  · split
    · exact ⟨l, aux_tb_same h rfl rfl rfl rfl rfl rfl rfl rfl, fun _ => rfl⟩
    · have h1 : aux_tb_Inv [] l { s with asked := s.asked ++ [.cert] } := aux_tb_same h rfl rfl rfl rfl rfl rfl rfl rfl
      cases cert with
      | none => exact ⟨l, h1, fun _ => rfl⟩
      | some c =>
        have h2 := aux_tb_alloc h1
        have h3 := aux_tb_same (s' := { ({ s with asked := s.asked ++ [.cert] } : Tb).alloc with
          asked := ({ s with asked := s.asked ++ [.cert] } : Tb).alloc.asked ++ [.key] }) h2 rfl rfl rfl rfl rfl rfl rfl rfl
        cases key with
        | none => exact ⟨_, aux_tb_lose h3, fun hk => by simp [tbTidy] at hk⟩
        | some k =>
          have h4 := aux_tb_alloc h3
          refine ⟨l, ?_, fun _ => rfl⟩
          refine aux_tb_same (aux_tb_putKey (v := some (_, k)) (aux_tb_putCert (v := some (_, c)) (aux_tb_perm h4 rfl rfl rfl fun i => ?_)))
            rfl rfl rfl rfl rfl rfl rfl rfl
          simp [List.count_append, List.count_cons, Tb.alloc, aux_tb_slots] <;> omega

theorem aux_tb_prepareInv {l : List Nat} {s : Tb} (h : aux_tb_Inv [] l s) (p : TbPrep) :
    ∃ l', aux_tb_Inv [] l' (s.prepare p) ∧ (tbTidy (.prepare p) = true → l' = l) := by
  unfold Tb.prepare
  split
  · exact ⟨l, h, fun _ => rfl⟩
  · have h1 := aux_tb_asks h
    generalize s.ask = s1 at h1 ⊢
    unfold Tb.prepareNow
    dsimp only
    split
    · exact ⟨l, aux_tb_shut h1, fun _ => rfl⟩
    · rename_i hm
      have h2 := aux_tb_alloc h1
      split
      · rename_i hc
        refine ⟨_, aux_tb_lose (aux_tb_shut (aux_tb_report h2)), fun ht => ?_⟩
        simp only [tbTidy] at ht
        revert hm hc ht; cases p.made <;> cases p.certOk <;> cases p.keyOk <;> cases p.same <;> simp
      · split
        · rename_i hc
          refine ⟨_, aux_tb_lose (aux_tb_shut (aux_tb_report h2)), fun ht => ?_⟩
          simp only [tbTidy] at ht
          revert hm hc ht; cases p.made <;> cases p.sslOk <;> simp
        · have h3 := aux_tb_alloc h2
          have h4 := aux_tb_hold (c := s1.ids) h3 (aux_tb_lt h3 (by simp))
          split
          · rename_i hc
            refine ⟨_, aux_tb_lose (aux_tb_alloc (aux_tb_down (aux_tb_same (aux_tb_clear h4) rfl rfl rfl rfl rfl rfl rfl rfl))), fun ht => ?_⟩
            simp only [tbTidy] at ht
            revert hm hc ht; cases p.made <;> cases p.connOk <;> simp
          · exact ⟨l, aux_tb_same (aux_tb_common h4) rfl rfl rfl rfl rfl rfl rfl rfl, fun _ => rfl⟩

theorem aux_tb_acceptInv {l : List Nat} {s : Tb} (h : aux_tb_Inv [] l s) (call : SslCall) (post : Option Bool) :
    aux_tb_Inv [] l (s.accept call post) := by
  unfold Tb.accept
  repeat' split
  all_goals first | exact h | exact aux_tb_same h rfl rfl rfl rfl rfl rfl rfl rfl

theorem aux_tb_connectInv {l : List Nat} {s : Tb} (h : aux_tb_Inv [] l s) (e : TbConn) :
    ∃ l', aux_tb_Inv [] l' (s.connect e) ∧ (tbTidy (.connect e) = true → l' = l) := by
  unfold Tb.connect
  split
  · exact ⟨l, h, fun _ => rfl⟩
  · split
    · exact ⟨l, aux_tb_same (aux_tb_clear h) rfl rfl rfl rfl rfl rfl rfl rfl, fun _ => rfl⟩
    · have h1 := aux_tb_asks (aux_tb_same (s' := { s with closes := true }) h rfl rfl rfl rfl rfl rfl rfl rfl)
      generalize Tb.ask { s with closes := true } = s1 at h1 ⊢
      unfold Tb.activate
      dsimp only
      split
      · exact ⟨l, h1, fun _ => rfl⟩
      · rename_i hm
        have h2 := aux_tb_alloc h1
        split
        · rename_i hc
          refine ⟨_, aux_tb_lose h2, fun ht => ?_⟩
          simp only [tbTidy] at ht
          revert hm hc ht; cases e.made <;> cases e.sslOk <;> simp
        · have h3 := aux_tb_alloc h2
          have h4 := aux_tb_common (aux_tb_hold (c := s1.ids) h3 (aux_tb_lt h3 (by simp)))
          refine ⟨l, ?_, fun _ => rfl⟩
          repeat' split
          all_goals exact aux_tb_same h4 rfl rfl rfl rfl rfl rfl rfl rfl

theorem aux_tb_stepInv {l : List Nat} {s : Tb} (h : aux_tb_Inv [] l s) (o : TbOp) :
    ∃ l', aux_tb_Inv [] l' (s.step o) ∧ (tbTidy o = true → l' = l) := by
  unfold Tb.step
  split
  · exact ⟨l, h, fun _ => rfl⟩
  · cases o with
    | own f => exact ⟨l, aux_tb_same h rfl rfl rfl rfl rfl rfl rfl rfl, fun _ => rfl⟩
    | dflt f => exact ⟨l, aux_tb_same h rfl rfl rfl rfl rfl rfl rfl rfl, fun _ => rfl⟩
    | start r a c k => exact aux_tb_startInv h r a c k
    | prepare p => exact aux_tb_prepareInv h p
    | accept c p => exact ⟨l, aux_tb_acceptInv h c p, fun _ => rfl⟩
    | connect e => exact aux_tb_connectInv h e
    | shutdown =>
      refine ⟨l, ?_, fun _ => rfl⟩
      show aux_tb_Inv [] l (if s.phase = .broken then s else s.down)
      split
      · exact h
      · exact aux_tb_down h
    | release => exact ⟨l, aux_tb_same (aux_tb_clear h) rfl rfl rfl rfl rfl rfl rfl rfl, fun _ => rfl⟩

theorem aux_tb_runInv (ops : List TbOp) : ∀ (l : List Nat) (s : Tb), aux_tb_Inv [] l s →
    ∃ l', aux_tb_Inv [] l' (s.run ops) ∧ ((∀ o ∈ ops, tbTidy o = true) → l' = l) := by
  induction ops with
  | nil => intro l s h; exact ⟨l, h, fun _ => rfl⟩
  | cons o os ih =>
    intro l s h
    obtain ⟨l1, h1, e1⟩ := aux_tb_stepInv h o
    obtain ⟨l2, h2, e2⟩ := ih l1 _ h1
    exact ⟨l2, h2, fun ht => by rw [e2 fun x hx => ht x (List.mem_cons_of_mem _ hx), e1 (ht o List.mem_cons_self)]⟩

theorem aux_tb_newInv : aux_tb_Inv [] [] Tb.new := ⟨rfl, fun _ => rfl, fun _ _ => rfl⟩

theorem aux_tb_append (a b : List TbOp) : ∀ s : Tb, s.run (a ++ b) = (s.run a).run b := by
  induction a with
  | nil => intro s; rfl
  | cons o a ih => intro s; exact ih _

/-- The fields that do not describe objects. -/
structure aux_tb_Eq (s t : Tb) : Prop where
  own : s.own = t.own
  dflt : s.dflt = t.dflt
  phase : s.phase = t.phase
  socket : s.socket = t.socket
  closes : s.closes = t.closes
  asked : s.asked = t.asked
  used : s.used = t.used
  reports : s.reports = t.reports

theorem aux_tb_Eq_drop (s : Tb) (c : Nat) : aux_tb_Eq (s.drop c) s := by
  have h := aux_tb_drop_fields s c
  constructor <;> simp [h]

theorem aux_tb_Eq_trans {s t u : Tb} (h : aux_tb_Eq s t) (g : aux_tb_Eq t u) : aux_tb_Eq s u := by
  obtain ⟨h1, h2, h3, h4, h5, h6, h7, h8⟩ := h
  obtain ⟨g1, g2, g3, g4, g5, g6, g7, g8⟩ := g
  constructor <;> simp_all

theorem aux_tb_Eq_dropOpt (s : Tb) (c : Option Nat) : aux_tb_Eq (s.dropOpt c) s := by
  cases c
  · constructor <;> rfl
  · exact aux_tb_Eq_drop _ _

theorem aux_tb_Eq_dropSsl (s : Tb) (c : Option (Nat × Nat)) : aux_tb_Eq (s.dropSsl c) s := by
  rcases c with _ | ⟨i, c⟩
  · constructor <;> rfl
  · exact aux_tb_Eq_trans (aux_tb_Eq_drop _ _) (aux_tb_Eq_drop _ _)

theorem aux_tb_Eq_dropFile (s : Tb) (c : Option (Nat × Nat)) : aux_tb_Eq (s.dropFile c) s := by
  rcases c with _ | ⟨i, c⟩
  · constructor <;> rfl
  · exact aux_tb_Eq_drop _ _

theorem aux_tb_Eq_of {s t : Tb} (h : aux_tb_Eq s t) (v : Option (Nat × Nat)) (x y : Option Nat) (z w : Option (Nat × Nat)) :
    aux_tb_Eq { s with ssl := v, ctx := x, mutex := y, cert := z, key := w } t := by
  obtain ⟨h1, h2, h3, h4, h5, h6, h7, h8⟩ := h
  constructor <;> assumption

theorem aux_tb_Eq_clear (s : Tb) : aux_tb_Eq s.clear s := by
  unfold Tb.clear
  refine aux_tb_Eq_of (aux_tb_Eq_trans (aux_tb_Eq_dropFile _ _) ?_) _ _ _ _ _
  refine aux_tb_Eq_of (aux_tb_Eq_trans (aux_tb_Eq_dropFile _ _) ?_) _ _ _ _ _
  refine aux_tb_Eq_of (aux_tb_Eq_trans (aux_tb_Eq_dropOpt _ _) ?_) _ _ _ _ _
  refine aux_tb_Eq_of (aux_tb_Eq_trans (aux_tb_Eq_dropOpt _ _) ?_) _ _ _ _ _
  exact aux_tb_Eq_of (aux_tb_Eq_dropSsl _ _) _ _ _ _ _

theorem aux_tb_Eq_common (s : Tb) (i c : Nat) : aux_tb_Eq (s.common i c) s := by
  unfold Tb.common
  refine aux_tb_Eq_of (aux_tb_Eq_trans (aux_tb_Eq_dropOpt _ _) ?_) _ _ _ _ _
  refine aux_tb_Eq_trans (t := { ({ s.dropSsl s.ssl with ssl := some (i, c) } : Tb).dropOpt ({ s.dropSsl s.ssl with ssl := some (i, c) } : Tb).ctx with
    ctx := some c }) (by constructor <;> rfl) ?_
  refine aux_tb_Eq_of (aux_tb_Eq_trans (aux_tb_Eq_dropOpt _ _) ?_) _ _ _ _ _
  exact aux_tb_Eq_of (aux_tb_Eq_dropSsl _ _) _ _ _ _ _

theorem aux_tb_keep_dropOpt (s : Tb) (c : Option Nat) : (s.dropOpt c).ssl = s.ssl ∧ (s.dropOpt c).ctx = s.ctx ∧ (s.dropOpt c).mutex = s.mutex ∧
    (s.dropOpt c).cert = s.cert ∧ (s.dropOpt c).key = s.key := by
  cases c
  · simp [Tb.dropOpt]
  · rename_i c
    have := aux_tb_drop_fields s c
    simp [Tb.dropOpt, this]

theorem aux_tb_keep_dropFile (s : Tb) (c : Option (Nat × Nat)) : (s.dropFile c).ssl = s.ssl ∧ (s.dropFile c).ctx = s.ctx ∧
    (s.dropFile c).mutex = s.mutex ∧ (s.dropFile c).cert = s.cert ∧ (s.dropFile c).key = s.key := by
  rcases c with _ | ⟨i, c⟩
  · simp [Tb.dropFile]
  · have := aux_tb_drop_fields s i
    simp [Tb.dropFile, this]

theorem aux_tb_keep_dropSsl (s : Tb) (c : Option (Nat × Nat)) : (s.dropSsl c).ssl = s.ssl ∧ (s.dropSsl c).ctx = s.ctx ∧
    (s.dropSsl c).mutex = s.mutex ∧ (s.dropSsl c).cert = s.cert ∧ (s.dropSsl c).key = s.key := by
  rcases c with _ | ⟨i, c⟩
  · simp [Tb.dropSsl]
  · have h1 := aux_tb_drop_fields s i
    have h2 := aux_tb_drop_fields (s.drop i) c
    simp [Tb.dropSsl, h1, h2]

theorem aux_tb_clearEmpty (s : Tb) : aux_tb_slots s.clear = [] := by
  simp [aux_tb_slots, aux_tb_ssl, Tb.clear, aux_tb_keep_dropFile, aux_tb_keep_dropOpt]

theorem aux_tb_commonFiles (s : Tb) (i c : Nat) : (s.common i c).cert = s.cert ∧ (s.common i c).key = s.key := by
  simp [Tb.common, aux_tb_keep_dropOpt, aux_tb_keep_dropSsl, Tb.alloc]

/-- C134, part: in every history nothing is released twice, and what the data of the connection refers to is there. -/
theorem C134_sound_partial (ops : List TbOp) : let s := Tb.new.run ops
    s.bad = false ∧ (∀ i c, s.ssl = some (i, c) → 0 < s.refs i ∧ 0 < s.refs c) ∧ (∀ c, s.ctx = some c → 0 < s.refs c) ∧
    (∀ m, s.mutex = some m → 0 < s.refs m) ∧ (∀ i n, s.cert = some (i, n) → 0 < s.refs i) ∧ (∀ i n, s.key = some (i, n) → 0 < s.refs i) := by
  obtain ⟨l, h, _⟩ := aux_tb_runInv ops [] _ aux_tb_newInv
  have key : ∀ i, i ∈ aux_tb_slots (Tb.new.run ops) → 0 < (Tb.new.run ops).refs i := fun i hi => by
    rw [h.refs, List.count_pos_iff]; simp [hi]
  refine ⟨h.bad, ?_, ?_, ?_, ?_, ?_⟩
  · intro i c e
    exact ⟨key i (by simp [aux_tb_slots, aux_tb_ssl, e]), key c (by simp [aux_tb_slots, aux_tb_ssl, e])⟩
  · intro c e; exact key c (by simp [aux_tb_slots, e])
  · intro c e; exact key c (by simp [aux_tb_slots, e])
  · intro i n e; exact key i (by simp [aux_tb_slots, e])
  · intro i n e; exact key i (by simp [aux_tb_slots, e])

theorem aux_tb_Eq_ask (s : Tb) : s.ask.own = s.own ∧ s.ask.dflt = s.dflt ∧ s.ask.phase = s.phase ∧ s.ask.socket = s.socket ∧
    s.ask.closes = s.closes ∧ s.ask.used = s.used ∧ s.ask.reports = s.reports ∧ s.ask.cert = s.cert ∧ s.ask.key = s.key := by
  unfold Tb.ask; split <;> simp

/-- What a step does, besides objects. -/
theorem aux_tb_prepareNow (s : Tb) (p : TbPrep) :
    (s.prepareNow p).own = s.own ∧ (s.prepareNow p).dflt = s.dflt ∧ (s.prepareNow p).asked = s.asked ∧
    (let good := (s.maker.isSome || (p.certOk && p.keyOk && p.same)) && p.sslOk
     (s.prepareNow p).phase = (if p.made && good && p.connOk then .accepting else .broken) ∧
     (s.prepareNow p).socket = (if p.made && good && p.connOk then s.socket else false) ∧
     (s.prepareNow p).closes = (if p.made && good && !p.connOk then s.closes else true) ∧
     (s.prepareNow p).reports = (if p.made && !good then s.reports + 1 else s.reports) ∧
     (p.made && good && p.connOk → (s.prepareNow p).used = some (match s.maker with
        | some f => TbSource.maker f
        | none => .files (s.cert.map (·.2)) (s.key.map (·.2))))) := by
  have hm : s.alloc.maker = s.maker := rfl
  have hh : ((s.alloc.alloc).hold s.ids).maker = s.maker := rfl
  have hc : ((s.alloc.alloc).hold s.ids).cert = s.cert := rfl
  have hk : ((s.alloc.alloc).hold s.ids).key = s.key := rfl
  obtain ⟨c1, c2, c3, c4, c5, c6, c7, c8⟩ := aux_tb_Eq_common ((s.alloc.alloc).hold s.ids) s.alloc.ids s.ids
  obtain ⟨l1, l2, l3, l4, l5, l6, l7, l8⟩ := aux_tb_Eq_clear ((s.alloc.alloc).hold s.ids)
  unfold Tb.prepareNow
  dsimp only
  simp only [hm, hh, hc, hk]
  generalize (((s.alloc.alloc).hold s.ids).common s.alloc.ids s.ids) = t at c1 c2 c3 c4 c5 c6 c7 c8 ⊢
  generalize ((s.alloc.alloc).hold s.ids).clear = u at l1 l2 l3 l4 l5 l6 l7 l8 ⊢
  replace c1 : t.own = s.own := c1
  replace c2 : t.dflt = s.dflt := c2
  replace c4 : t.socket = s.socket := c4
  replace c6 : t.asked = s.asked := c6
  replace c8 : t.reports = s.reports := c8
  replace l1 : u.own = s.own := l1
  replace l2 : u.dflt = s.dflt := l2
  replace l5 : u.closes = s.closes := l5
  replace l6 : u.asked = s.asked := l6
  replace l8 : u.reports = s.reports := l8
  clear c3 c5 c7 l3 l4 l7 hm hh hc hk
  cases hmk : s.maker <;> repeat' split
  all_goals simp_all [Tb.shut, Tb.down, Tb.report, Tb.alloc]
  all_goals grind

theorem aux_tb_activate (s : Tb) (e : TbConn) :
    (s.activate e).own = s.own ∧ (s.activate e).dflt = s.dflt ∧ (s.activate e).asked = s.asked ∧ (s.activate e).closes = s.closes ∧
    ((s.activate e).phase = s.phase ∧ (s.activate e).socket = s.socket ∨ (s.activate e).phase = .secured ∧ (s.activate e).socket = s.socket ∨
      (s.activate e).phase = .broken ∧ (s.activate e).socket = (s.socket && !s.closes)) ∧
    (e.made = true → e.sslOk = true → (s.activate e).used = some (match s.maker with | some f => TbSource.maker f | none => .plain)) ∧
    ((s.activate e).phase = .secured → s.phase ≠ .secured →
      e.made = true ∧ e.sslOk = true ∧ e.shake = .done ∧ e.peerCert = true ∧ e.post ≠ some false ∧ e.greet = true) := by
  have hh : ((s.alloc.alloc).hold s.ids).maker = s.maker := rfl
  obtain ⟨c1, c2, c3, c4, c5, c6, c7, c8⟩ := aux_tb_Eq_common ((s.alloc.alloc).hold s.ids) s.alloc.ids s.ids
  unfold Tb.activate
  dsimp only
  simp only [hh]
  generalize (((s.alloc.alloc).hold s.ids).common s.alloc.ids s.ids) = t at c1 c2 c3 c4 c5 c6 c7 c8 ⊢
  replace c1 : t.own = s.own := c1
  replace c2 : t.dflt = s.dflt := c2
  replace c3 : t.phase = s.phase := c3
  replace c4 : t.socket = s.socket := c4
  replace c5 : t.closes = s.closes := c5
  replace c6 : t.asked = s.asked := c6
  clear c7 c8 hh
  cases s.maker <;> simp only <;> repeat' split
  all_goals simp_all [Tb.down, Tb.report, Tb.alloc]

theorem aux_tb_startPhase (s : Tb) (r a : Bool) (cert key : Option Nat) :
    (s.start r a cert key).own = s.own ∧ (s.start r a cert key).dflt = s.dflt ∧ (s.start r a cert key).socket = s.socket ∧
    (s.start r a cert key).reports = s.reports ∧ (s.start r a cert key).used = s.used ∧
    (let taken := (s.phase = .idle ∨ s.phase = .prepare) ∧ r = true ∧ a = true
     let full := taken ∧ (s.maker.isSome ∨ (cert.isSome ∧ key.isSome))
     (full → (s.start r a cert key).phase = .prepare ∧ (s.start r a cert key).closes = false) ∧
     (¬ full → (s.start r a cert key).phase = s.phase ∧ (s.start r a cert key).closes = s.closes ∧ (s.start r a cert key).cert = s.cert ∧
       (s.start r a cert key).key = s.key) ∧
     (full → s.maker = none → (s.start r a cert key).cert.map (·.2) = cert ∧ (s.start r a cert key).key.map (·.2) = key) ∧
     (s.maker.isSome → (s.start r a cert key).asked = s.asked)) := by
  unfold Tb.start
  split
  · rename_i h
    have hn : ¬ (((s.phase = .idle ∨ s.phase = .prepare) ∧ r = true ∧ a = true) ∧ (s.maker.isSome ∨ (cert.isSome ∧ key.isSome))) := by
      intro hx; revert h; cases r <;> cases a <;> simp_all <;> grind
    simp [hn]
  · rename_i h
    have ht : (s.phase = .idle ∨ s.phase = .prepare) ∧ r = true ∧ a = true := by
      revert h; cases r <;> cases a <;> simp <;> grind
    split
    · rename_i f hf
      simp [ht, hf]
    · rename_i hf
      cases cert with
      | none => simp [ht, hf]
      | some c =>
        cases key with
        | none => simp [ht, hf, Tb.alloc]
        | some k =>
          simp only [Option.isSome_some, and_self, or_true, and_true, ht, hf]
          have e1 := aux_tb_Eq_dropFile ({ ({ s with asked := s.asked ++ [.cert] } : Tb).alloc with
            asked := ({ s with asked := s.asked ++ [.cert] } : Tb).alloc.asked ++ [.key] } : Tb).alloc s.cert
          have k1 := aux_tb_keep_dropFile ({ ({ s with asked := s.asked ++ [.cert] } : Tb).alloc with
            asked := ({ s with asked := s.asked ++ [.cert] } : Tb).alloc.asked ++ [.key] } : Tb).alloc s.cert
          obtain ⟨c1, c2, c3, c4, c5, c6, c7, c8⟩ := e1
          have e2 := fun (t : Tb) (x : Option (Nat × Nat)) => aux_tb_Eq_dropFile t x
          have k2 := fun (t : Tb) (x : Option (Nat × Nat)) => aux_tb_keep_dropFile t x
          have f1 := fun t x => (e2 t x).own
          have f2 := fun t x => (e2 t x).dflt
          have f3 := fun t x => (e2 t x).socket
          have f4 := fun t x => (e2 t x).reports
          have f5 := fun t x => (e2 t x).used
          have f6 := fun t x => (e2 t x).asked
          simp [f1, f2, f3, f4, f5, f6, k2, Tb.alloc]

theorem aux_tb_acceptPhase (s : Tb) (call : SslCall) (post : Option Bool) :
    (s.accept call post).own = s.own ∧ (s.accept call post).dflt = s.dflt ∧ (s.accept call post).asked = s.asked ∧
    (s.accept call post).closes = s.closes ∧ (s.accept call post).used = s.used ∧ (s.accept call post).cert = s.cert ∧
    (s.accept call post).key = s.key ∧
    (s.phase ≠ .accepting → s.accept call post = s) ∧
    (s.phase = .accepting →
      ((s.accept call post).phase = .idle ∧ (s.accept call post).socket = s.socket ∧ (s.accept call post).reports = s.reports + 1) ∨
      ((s.accept call post).phase = .broken ∧ (s.accept call post).socket = (s.socket && !s.closes) ∧
        (s.accept call post).reports = s.reports + 1) ∨
      (((s.accept call post).phase = .accepting ∨ (s.accept call post).phase = .secured) ∧ (s.accept call post).socket = s.socket ∧
        (s.accept call post).reports = s.reports)) := by
  unfold Tb.accept
  repeat' split
  all_goals simp_all [Tb.report, Tb.down]

theorem aux_tb_goneEmpty (ops : List TbOp) : ∀ s : Tb, (s.phase = .gone → aux_tb_slots s = []) →
    (s.run ops).phase = .gone → aux_tb_slots (s.run ops) = [] := by
  induction ops with
  | nil => intro s h; exact h
  | cons o os ih =>
    intro s h
    refine ih _ ?_
    unfold Tb.step
    split
    · exact h
    · rename_i hg
      cases o with
      | own f => intro hp; exact absurd hp hg
      | dflt f => intro hp; exact absurd hp hg
      | start r a c k =>
        intro hp
        obtain ⟨_, _, _, _, _, h1, h2, _⟩ := aux_tb_startPhase s r a c k
        dsimp only at hp
        grind
      | prepare p =>
        intro hp
        dsimp only at hp
        unfold Tb.prepare at hp
        split at hp
        · exact absurd hp hg
        · rw [(aux_tb_prepareNow s.ask p).2.2.2.1] at hp; split at hp <;> cases hp
      | accept c p =>
        intro hp
        dsimp only at hp
        have := aux_tb_acceptPhase s c p
        grind
      | connect e =>
        intro hp
        dsimp only at hp
        unfold Tb.connect at hp
        split at hp
        · exact absurd hp hg
        · split at hp
          · exact absurd ((aux_tb_Eq_clear s).phase.symm.trans hp) hg
          · have a := aux_tb_activate ({ s with closes := true } : Tb).ask e
            have b := aux_tb_Eq_ask ({ s with closes := true } : Tb)
            grind
      | shutdown =>
        intro hp
        dsimp only at hp
        split at hp
        · exact absurd hp hg
        · cases hp
      | release => intro _; exact aux_tb_clearEmpty s

/-- C134, part: when nothing fails between the context and the handshake, and the application names a key with each certificate, everything that was
made or handed over is released when the connection is. -/
theorem C134_released_partial (ops : List TbOp) (ht : ∀ o ∈ ops, tbTidy o = true) (hg : (Tb.new.run ops).phase = .gone) (i : Nat) :
    (Tb.new.run ops).refs i = 0 := by
  obtain ⟨l, h, e⟩ := aux_tb_runInv ops [] _ aux_tb_newInv
  rw [h.refs, aux_tb_goneEmpty ops _ (fun x => by cases x) hg, e ht]
  rfl

example : (∀ o ∈ [TbOp.start true true (some 1) (some 2), .prepare ⟨true, true, true, true, true, true⟩, .accept ⟨1, .other⟩ none, .release],
    tbTidy o = true) ∧ (Tb.new.run [TbOp.start true true (some 1) (some 2), .prepare ⟨true, true, true, true, true, true⟩,
      .accept ⟨1, .other⟩ none]).phase = .secured ∧
    (Tb.new.run [TbOp.start true true (some 1) (some 2), .prepare ⟨true, true, true, true, true, true⟩, .accept ⟨1, .other⟩ none]).refs 2 = 2 := by
  decide +kernel

/-- C134, part: at a listener that can always make a context and a new connection, the failure handler is called once for each negotiation that
fails, and not otherwise. -/
theorem C134_reports_partial (ops : List TbOp) (ho : ∀ o ∈ ops, tbServes o = true) : (Tb.new.run ops).reports = tbFailures Tb.new ops := by
  have key : ∀ (ops : List TbOp) (s : Tb), (∀ o ∈ ops, tbServes o = true) → (s.run ops).reports = s.reports + tbFailures s ops := by
    intro ops
    induction ops with
    | nil => intro s _; rfl
    | cons o os ih =>
      intro s ho
      have h1 : (s.step o).reports = s.reports + (if tbPending s o && tbEnded (s.step o) then 1 else 0) := by
        have hs := ho o List.mem_cons_self
        unfold Tb.step
        split
        · rename_i hg
          cases o <;> simp [tbPending, hg]
        · rename_i hg
          cases o with
          | own f => simp [tbPending]
          | dflt f => simp [tbPending]
          | start r a c k =>
            have := aux_tb_startPhase s r a c k
            simp [tbPending, this]
          | prepare p =>
            simp only [tbServes] at hs
            dsimp only
            unfold Tb.prepare
            split
            · rename_i hp; simp [tbPending, hp]
            · rename_i hp
              obtain ⟨_, _, _, h1, _, _, h4, _⟩ := aux_tb_prepareNow s.ask p
              have hr := (aux_tb_Eq_ask s).2.2.2.2.2.2.1
              simp only [tbPending, tbEnded, h1, h4, hr]
              revert hs
              generalize ((s.ask.maker.isSome || (p.certOk && p.keyOk && p.same)) && p.sslOk) = good
              have hp' : s.phase = .prepare := by simpa using hp
              cases p.made <;> cases p.connOk <;> cases good <;> simp [hp']
          | accept c p =>
            obtain ⟨_, _, _, _, _, _, _, h1, h2⟩ := aux_tb_acceptPhase s c p
            dsimp only
            by_cases hp : s.phase = .accepting
            · rcases h2 hp with ⟨a, _, b⟩ | ⟨a, _, b⟩ | ⟨a, _, b⟩
              · simp [tbPending, tbEnded, hp, a, b]
              · simp [tbPending, tbEnded, hp, a, b]
              · rcases a with a | a <;> simp [tbPending, tbEnded, hp, a, b]
            · have hr := congrArg Tb.reports (h1 hp)
              simp [tbPending, hp, hr]
          | connect e => simp [tbServes] at hs
          | shutdown => dsimp only; split <;> simp [tbPending, Tb.down]
          | release => simp [tbPending, (aux_tb_Eq_clear s).reports]
      have h2 := ih (s.step o) (fun x hx => ho x (List.mem_cons_of_mem _ hx))
      show ((s.step o).run os).reports = s.reports + ((if tbPending s o && tbEnded (s.step o) then 1 else 0) + tbFailures (s.step o) os)
      omega
  have := key ops Tb.new ho
  simpa [Tb.new] using this

example : let ops : List TbOp := [.start true true (some 1) (some 2), .prepare ⟨true, true, true, true, true, true⟩, .accept ⟨-1, .other⟩ none,
      .start true true (some 1) (some 3), .prepare ⟨true, true, true, false, true, true⟩]
    (∀ o ∈ ops, tbServes o = true) ∧ tbFailures Tb.new ops = 2 := by decide +kernel

/-- C134, part: when the new connection can be made, and nothing ends the connection between `<proceed />` and the handshake, the descriptor is open
while the connection is in use, and closed exactly when it ends. -/
theorem C134_socket_partial (ops : List TbOp) (ho : ∀ o ∈ ops, tbRenews o = true) (hp : TbPatient Tb.new ops) :
    ((Tb.new.run ops).socket = false ↔ (Tb.new.run ops).phase = .broken ∨ (Tb.new.run ops).phase = .gone) := by
  have key : ∀ (ops : List TbOp) (s : Tb), (∀ o ∈ ops, tbRenews o = true) → TbPatient s ops →
      ((s.socket = false ↔ s.phase = .broken ∨ s.phase = .gone) ∧ (s.phase ≠ .prepare → s.phase ≠ .broken → s.phase ≠ .gone → s.closes = true)) →
      (((s.run ops).socket = false ↔ (s.run ops).phase = .broken ∨ (s.run ops).phase = .gone)) := by
    intro ops
    induction ops with
    | nil => intro s _ _ h; exact h.1
    | cons o os ih =>
      intro s ho hp h
      refine ih (s.step o) (fun x hx => ho x (List.mem_cons_of_mem _ hx)) hp.2 ?_
      have hs := ho o List.mem_cons_self
      have hq := hp.1
      clear ih ho hp
      unfold Tb.step
      split
      · exact h
      · rename_i hg
        obtain ⟨h1, h2⟩ := h
        cases o with
        | own f => exact ⟨h1, h2⟩
        | dflt f => exact ⟨h1, h2⟩
        | start r a c k =>
          obtain ⟨_, _, e, _, _, f1, f2, _⟩ := aux_tb_startPhase s r a c k
          dsimp only
          rw [e]
          grind
        | prepare p =>
          dsimp only
          unfold Tb.prepare
          split
          · exact ⟨h1, h2⟩
          · rename_i hpp
            obtain ⟨_, _, _, g1, g2, g3, _⟩ := aux_tb_prepareNow s.ask p
            have hr := aux_tb_Eq_ask s
            have hpp' : s.phase = .prepare := by simpa using hpp
            have hsk : s.socket = true := by
              have := h1.mp
              cases hk : s.socket
              · have := this hk; rw [hpp'] at this; simp at this
              · rfl
            rw [g1, g2, g3, hr.2.2.2.1, hr.2.2.2.2.1, hsk]
            generalize ((s.ask.maker.isSome || (p.certOk && p.keyOk && p.same)) && p.sslOk) = good
            cases p.made <;> cases p.connOk <;> cases good <;> simp
        | accept c p =>
          obtain ⟨_, _, _, e, _, _, _, f1, f2⟩ := aux_tb_acceptPhase s c p
          dsimp only
          rw [e]
          by_cases ha : s.phase = .accepting
          · have hc := h2 (by rw [ha]; simp) (by rw [ha]; simp) hg
            rw [hc] at f2
            grind
          · rw [f1 ha]; exact ⟨h1, h2⟩
        | connect e =>
          simp only [tbRenews] at hs
          dsimp only
          unfold Tb.connect
          split
          · exact ⟨h1, h2⟩
          · rename_i hi
            rw [if_neg (by simp [hs])]
            have a := aux_tb_activate ({ s with closes := true } : Tb).ask e
            have b := aux_tb_Eq_ask ({ s with closes := true } : Tb)
            grind
        | shutdown =>
          have := hq (Or.inl rfl)
          dsimp only
          split
          · exact ⟨h1, h2⟩
          · rename_i hb; simp [Tb.down, h2 this hb hg]
        | release =>
          have := hq (Or.inr rfl)
          by_cases hb : s.phase = .broken
          · have hk : s.socket = false := h1.mpr (Or.inl hb)
            simp [hk]
          · simp [h2 this hb hg]
  exact key ops Tb.new ho hp ⟨by simp [Tb.new], fun _ _ _ => rfl⟩

example : let ops : List TbOp := [.start true true (some 1) (some 2), .prepare ⟨true, true, true, true, true, true⟩, .shutdown, .release]
    (∀ o ∈ ops, tbRenews o = true) ∧ TbPatient Tb.new ops ∧ (Tb.new.run ops).socket = false ∧ (Tb.new.run (ops.take 1)).socket = true := by
  refine ⟨by decide +kernel, ⟨by decide +kernel, by decide +kernel, by decide +kernel, by decide +kernel, trivial⟩, by decide +kernel, by decide +kernel⟩

/-- What the library keeps is what the application set. -/
structure aux_tb_Knows (done : List TbOp) (s : Tb) : Prop where
  own : s.own = (done.filterMap tbOwnOf).getLast?
  dflt : s.dflt = (done.filterMap tbDfltOf).getLast?
  files : s.phase = .prepare → s.maker = none → s.cert.map (·.2) = (tbNamed done).map (·.1) ∧ s.key.map (·.2) = (tbNamed done).map (·.2)
  some : s.phase = .prepare → s.maker = none → (tbNamed done).isSome = true

theorem aux_tb_maker {done : List TbOp} {s : Tb} (h : aux_tb_Knows done s) : s.maker = tbMaker done := by
  unfold Tb.maker tbMaker
  rw [← h.own, ← h.dflt]
  cases s.own <;> rfl

theorem aux_tb_named (done : List TbOp) (o : TbOp) : tbNamed (done ++ [o]) =
    match o with
    | .start true true (some c) (some k) => some (c, k)
    | _ => tbNamed done := by
  unfold tbNamed
  rw [List.filterMap_append]
  split <;> simp

theorem aux_tb_knowsSame {done : List TbOp} {s t : Tb} {o : TbOp} (h : aux_tb_Knows done s) (h1 : ∀ f, o ≠ .own f) (h2 : ∀ f, o ≠ .dflt f)
    (h3 : ∀ r a c k, o ≠ .start r a c k)
    (ht : t.own = s.own ∧ t.dflt = s.dflt ∧ (t.phase = .prepare → s.phase = .prepare ∧ t.cert = s.cert ∧ t.key = s.key)) :
    aux_tb_Knows (done ++ [o]) t := by
  obtain ⟨g1, g2, g3, g4⟩ := h
  obtain ⟨t1, t2, t3⟩ := ht
  have em : t.maker = s.maker := by unfold Tb.maker; rw [t1, t2]
  have en : tbNamed (done ++ [o]) = tbNamed done := by
    rw [aux_tb_named]
    split
    · exact absurd rfl (h3 _ _ _ _)
    · rfl
  refine ⟨?_, ?_, fun hp hm => ?_, fun hp hm => ?_⟩
  · rw [t1, g1, List.filterMap_append]
    cases o <;> simp_all [tbOwnOf, tbDfltOf]
  · rw [t2, g2, List.filterMap_append]
    cases o <;> simp_all [tbOwnOf, tbDfltOf]
  · rw [en, (t3 hp).2.1, (t3 hp).2.2]; exact g3 (t3 hp).1 (em ▸ hm)
  · rw [en]; exact g4 (t3 hp).1 (em ▸ hm)

theorem aux_tb_knows {done : List TbOp} {s : Tb} (h : aux_tb_Knows done s) (o : TbOp) (hg : (s.step o).phase ≠ .gone) :
    aux_tb_Knows (done ++ [o]) (s.step o) := by
  have hs : s.phase ≠ .gone := fun e => hg (by unfold Tb.step; rw [if_pos e]; exact e)
  obtain ⟨h1, h2, h3, h4⟩ := h
  unfold Tb.step at hg ⊢
  rw [if_neg hs] at hg ⊢
  cases o with
  | own f =>
    refine ⟨by simp [tbOwnOf, tbDfltOf, List.filterMap_append], by simpa [tbOwnOf, tbDfltOf, List.filterMap_append] using h2, fun hp hm => ?_, fun hp hm => ?_⟩
    · simp [Tb.maker] at hm
    · simp [Tb.maker] at hm
  | dflt f =>
    refine ⟨by simpa [tbOwnOf, tbDfltOf, List.filterMap_append] using h1, by simp [tbOwnOf, tbDfltOf, List.filterMap_append], fun hp hm => ?_, fun hp hm => ?_⟩
    · revert hm; simp only [Tb.maker]; cases s.own <;> simp
    · revert hm; simp only [Tb.maker]; cases s.own <;> simp
  | start r a c k =>
    obtain ⟨e1, e2, _, _, _, f1, f2, f3, _⟩ := aux_tb_startPhase s r a c k
    have em : (s.start r a c k).maker = s.maker := by unfold Tb.maker; rw [e1, e2]
    refine ⟨by simpa [tbOwnOf, tbDfltOf, List.filterMap_append, e1] using h1, by simpa [tbOwnOf, tbDfltOf, List.filterMap_append, e2] using h2, fun hp hm => ?_, fun hp hm => ?_⟩
    all_goals
      rw [aux_tb_named]
      dsimp only at hp hm ⊢
      rw [em] at hm
      by_cases full : ((s.phase = .idle ∨ s.phase = .prepare) ∧ r = true ∧ a = true) ∧ (s.maker.isSome ∨ (c.isSome ∧ k.isSome))
      · obtain ⟨⟨_, rfl, rfl⟩, hx⟩ := full
        simp only [hm] at hx
        rcases hx with hx | ⟨hc, hk⟩
        · simp at hx
        · obtain ⟨c, rfl⟩ := Option.isSome_iff_exists.mp hc
          obtain ⟨k, rfl⟩ := Option.isSome_iff_exists.mp hk
          have := f3 (by grind) hm
          simp [this]
      · have g := f2 full
        rw [g.1] at hp
        have q3 := h3 hp hm
        have q4 := h4 hp hm
        split
        · rename_i he; injection he with a1 a2 a3 a4; subst a1 a2 a3 a4; exact absurd ⟨⟨Or.inr hp, rfl, rfl⟩, Or.inr ⟨rfl, rfl⟩⟩ full
        · simp [g, q3, q4]
  | prepare p =>
    refine aux_tb_knowsSame ⟨h1, h2, h3, h4⟩ (by simp) (by simp) (by simp) ?_
    dsimp only
    unfold Tb.prepare
    split
    · simp
    · obtain ⟨e1, e2, _, e3, _⟩ := aux_tb_prepareNow s.ask p
      have b := aux_tb_Eq_ask s
      refine ⟨by rw [e1]; exact b.1, by rw [e2]; exact b.2.1, fun hp => ?_⟩
      rw [e3] at hp; split at hp <;> cases hp
  | accept c p =>
    refine aux_tb_knowsSame ⟨h1, h2, h3, h4⟩ (by simp) (by simp) (by simp) ?_
    have := aux_tb_acceptPhase s c p
    dsimp only
    grind
  | connect e =>
    refine aux_tb_knowsSame ⟨h1, h2, h3, h4⟩ (by simp) (by simp) (by simp) ?_
    dsimp only
    unfold Tb.connect
    split
    · simp
    · rename_i hi
      have hi' : s.phase = .idle := by simpa using hi
      split
      · have b := aux_tb_Eq_clear s
        refine ⟨b.own, b.dflt, fun hp => ?_⟩
        have : s.phase = .prepare := b.phase.symm.trans hp
        rw [hi'] at this; cases this
      · have a := aux_tb_activate ({ s with closes := true } : Tb).ask e
        have b := aux_tb_Eq_ask ({ s with closes := true } : Tb)
        grind
  | shutdown =>
    refine aux_tb_knowsSame ⟨h1, h2, h3, h4⟩ (by simp) (by simp) (by simp) ?_
    dsimp only
    split <;> simp [Tb.down]
  | release => exact absurd rfl hg

theorem aux_tb_knowsRun (ops : List TbOp) : ∀ (done : List TbOp) (s : Tb), aux_tb_Knows done s → (s.run ops).phase ≠ .gone →
    aux_tb_Knows (done ++ ops) (s.run ops) := by
  induction ops with
  | nil => intro done s h _; rw [List.append_nil]; exact h
  | cons o os ih =>
    intro done s h hg
    have hs : (s.step o).phase ≠ .gone := by
      intro e
      refine hg ?_
      have key : ∀ (os : List TbOp) (t : Tb), t.phase = .gone → (t.run os).phase = .gone := by
        intro os
        induction os with
        | nil => intro t h; exact h
        | cons o os ih => intro t h; refine ih _ ?_; unfold Tb.step; rw [if_pos h]; exact h
      exact key os _ e
    have := ih (done ++ [o]) (s.step o) (aux_tb_knows h o hs) hg
    rw [List.append_assoc] at this
    exact this

/-- C134, part: a handshake of the listener begins with a context of the function the application set (for the connection, or the default), or with the
certificate and the key it named when it accepted the request, which were loaded and belong together; in every history. -/
theorem C134_source_partial (before : List TbOp) (p : TbPrep) (hp : (Tb.new.run before).phase = .prepare)
    (ha : (Tb.new.run (before ++ [.prepare p])).phase = .accepting) :
    p.made = true ∧
    match tbMaker before with
    | some f => (Tb.new.run (before ++ [.prepare p])).used = some (.maker f)
    | none => ∃ c k, tbNamed before = some (c, k) ∧ (Tb.new.run (before ++ [.prepare p])).used = some (.files (some c) (some k)) ∧
        p.certOk = true ∧ p.keyOk = true ∧ p.same = true := by
  have hk := aux_tb_knowsRun before [] Tb.new ⟨rfl, rfl, fun h => by simp [Tb.new] at h, fun h => by simp [Tb.new] at h⟩ (by rw [hp]; simp)
  rw [List.nil_append] at hk
  have hm := aux_tb_maker hk
  rw [aux_tb_append] at ha ⊢
  generalize Tb.new.run before = s at hp ha hk hm ⊢
  have e : (s.run [.prepare p]) = s.ask.prepareNow p := by
    show s.step (.prepare p) = _
    unfold Tb.step
    rw [if_neg (by rw [hp]; simp)]
    dsimp only
    unfold Tb.prepare
    rw [if_neg (by simp [hp])]
  rw [e] at ha ⊢
  obtain ⟨_, _, _, g1, _, _, _, g2⟩ := aux_tb_prepareNow s.ask p
  have b := aux_tb_Eq_ask s
  have em : s.ask.maker = s.maker := by unfold Tb.maker; rw [b.1, b.2.1]
  rw [g1] at ha
  split at ha
  · rename_i hc
    have g := g2 hc
    rw [em, hm] at g
    simp only [Bool.and_eq_true, Bool.or_eq_true] at hc
    refine ⟨hc.1.1, ?_⟩
    cases h : tbMaker before with
    | some f => rw [h] at g; exact g
    | none =>
      rw [h] at g
      have hm' : s.maker = none := hm.trans h
      have q := hk.files hp hm'
      obtain ⟨x, hx⟩ := Option.isSome_iff_exists.mp (hk.some hp hm')
      rw [hx] at q
      refine ⟨x.1, x.2, hx, ?_, ?_⟩
      · rw [g, b.2.2.2.2.2.2.2.1, b.2.2.2.2.2.2.2.2, q.1, q.2]; rfl
      · have := hc.1.2.1
        rw [em, hm'] at this
        simpa [and_assoc] using this
  · cases ha

example : let before : List TbOp := [.start true true (some 1) (some 2), .start true true (some 3) (some 4)]
    (Tb.new.run before).phase = .prepare ∧ (Tb.new.run (before ++ [.prepare ⟨true, true, true, true, true, true⟩])).phase = .accepting ∧
    tbMaker before = none ∧ tbNamed before = some (3, 4) ∧
    (Tb.new.run (.own 7 :: .dflt 8 :: before ++ [.prepare ⟨true, false, false, false, true, true⟩])).used = some (.maker 7) := by decide +kernel

/-- C134, part: once the application has set a function that makes contexts, it is not asked for certificates and keys any more. -/
theorem C134_asked_partial (before after : List TbOp) (hm : tbMaker before ≠ none) (hg : (Tb.new.run before).phase ≠ .gone) (a : TbAsk)
    (ha : a = .cert ∨ a = .key) : (Tb.new.run (before ++ after)).asked.count a = (Tb.new.run before).asked.count a := by
  have hk := aux_tb_knowsRun before [] Tb.new ⟨rfl, rfl, fun h => by simp [Tb.new] at h, fun h => by simp [Tb.new] at h⟩ hg
  rw [List.nil_append] at hk
  have h0 : (Tb.new.run before).maker.isSome = true := by
    rw [aux_tb_maker hk]; cases h : tbMaker before
    · exact absurd h hm
    · rfl
  rw [aux_tb_append]
  generalize Tb.new.run before = s at h0 ⊢
  clear hk hg hm before
  have mk : ∀ (s t : Tb), t.own = s.own → t.dflt = s.dflt → t.maker = s.maker := fun s t h g => by unfold Tb.maker; rw [h, g]
  have asks : ∀ s : Tb, s.ask.asked.count a = s.asked.count a := by
    intro s
    unfold Tb.ask
    split
    · rcases ha with rfl | rfl <;> simp [List.count_append]
    · rfl
  induction after generalizing s with
  | nil => rfl
  | cons o os ih =>
    have h1 : (s.step o).maker.isSome = true ∧ (s.step o).asked.count a = s.asked.count a := by
      unfold Tb.step
      split
      · exact ⟨h0, rfl⟩
      · cases o with
        | own f => simp [Tb.maker]
        | dflt f => refine ⟨?_, rfl⟩; simp only [Tb.maker]; cases s.own <;> simp
        | start r a c k =>
          obtain ⟨e1, e2, _, _, _, _, _, _, e3⟩ := aux_tb_startPhase s r a c k
          dsimp only
          rw [mk _ _ e1 e2, e3 h0]
          exact ⟨h0, rfl⟩
        | prepare p =>
          dsimp only
          unfold Tb.prepare
          split
          · exact ⟨h0, rfl⟩
          · obtain ⟨e1, e2, e3, _⟩ := aux_tb_prepareNow s.ask p
            have b := aux_tb_Eq_ask s
            rw [mk s _ (e1.trans b.1) (e2.trans b.2.1), e3, asks]
            exact ⟨h0, rfl⟩
        | accept c p =>
          obtain ⟨e1, e2, e3, _⟩ := aux_tb_acceptPhase s c p
          dsimp only
          rw [mk _ _ e1 e2, e3]
          exact ⟨h0, rfl⟩
        | connect e =>
          dsimp only
          unfold Tb.connect
          split
          · exact ⟨h0, rfl⟩
          · split
            · have b := aux_tb_Eq_clear s
              exact ⟨(congrArg Option.isSome (mk s s.clear b.own b.dflt)).trans h0, congrArg (List.count a) b.asked⟩
            · obtain ⟨e1, e2, e3, _⟩ := aux_tb_activate ({ s with closes := true } : Tb).ask e
              have b := aux_tb_Eq_ask ({ s with closes := true } : Tb)
              rw [mk s _ (e1.trans b.1) (e2.trans b.2.1), e3, asks]
              exact ⟨h0, rfl⟩
        | shutdown => dsimp only; split <;> exact ⟨h0, rfl⟩
        | release =>
          have b := aux_tb_Eq_clear s
          exact ⟨(congrArg Option.isSome (mk s s.clear b.own b.dflt)).trans h0, congrArg (List.count a) b.asked⟩
    show ((s.step o).run os).asked.count a = _
    rw [ih _ h1.1, h1.2]

example : tbMaker [TbOp.dflt 5] ≠ none ∧ (Tb.new.run [TbOp.dflt 5]).phase ≠ .gone ∧
    (Tb.new.run [TbOp.dflt 5, .start true true (some 1) (some 2), .prepare ⟨true, true, true, true, true, true⟩]).asked = [.maker 5] ∧
    (Tb.new.run [TbOp.start true true (some 1) (some 2)]).asked = [.cert, .key] := by decide +kernel

/-- The full statement: nothing is released twice; each negotiation that fails is reported once; when the connection is released, everything that
was made for it or handed over is released, and its descriptor is closed; while it is in use its descriptor is open. -/
def C134_statement : Prop := ∀ ops : List TbOp, let s := Tb.new.run ops
  s.bad = false ∧ s.reports = tbFailures Tb.new ops ∧ (s.phase = .gone → (∀ i, s.refs i = 0) ∧ s.socket = false) ∧
  (s.phase = .idle ∨ s.phase = .secured → s.socket = true)

/-- A certificate that cannot be loaded, a key that cannot be loaded or does not belong to it, an SSL object that cannot be made: the context is lost,
each time. -/
theorem C134_contextLost (p : TbPrep) (hm : p.made = true) (hf : (p.certOk && p.keyOk && p.same && p.sslOk) = false) :
    let s := Tb.new.run [.start true true (some 1) (some 2), .prepare p, .release]
    s.phase = .gone ∧ s.refs 2 = 1 := by
  obtain ⟨a, b, c, d, e, f⟩ := p
  cases hm
  revert hf
  cases b <;> cases c <;> cases d <;> cases e <;> cases f <;> decide +kernel

/-- The same at the initiator when the SSL object cannot be made. -/
theorem C134_contextLostInitiator : let s := Tb.new.run [.connect ⟨true, true, false, .done, true, none, true, true⟩, .release]
    s.phase = .gone ∧ s.refs 0 = 1 := by decide +kernel

/-- The application names a certificate and no key: the name of the certificate is lost. -/
theorem C134_certificateLost : let s := Tb.new.run [.start true true (some 1) none, .release]
    s.phase = .gone ∧ s.refs 0 = 1 := by decide +kernel

/-- The peer is gone when its new connection is to be made: the SSL object, its context and the mutex are lost, and nobody is told. -/
theorem C134_peerGone : let ops : List TbOp := [.start true true (some 1) (some 2), .prepare ⟨true, true, true, true, true, false⟩, .release]
    (Tb.new.run ops).phase = .gone ∧ (Tb.new.run ops).refs 2 = 2 ∧ (Tb.new.run ops).refs 3 = 1 ∧ (Tb.new.run ops).refs 4 = 1 ∧
    (Tb.new.run ops).reports = 0 ∧ tbFailures Tb.new ops = 1 := by decide +kernel

/-- No context can be made (or the function of the application refuses): the failure handler is not called. -/
theorem C134_unreported : let ops : List TbOp := [.own 1, .start true true none none, .prepare ⟨false, true, true, true, true, true⟩]
    (Tb.new.run ops).reports = 0 ∧ tbFailures Tb.new ops = 1 := by decide +kernel

/-- The initiator: a handshake the peer refuses, a peer without certificate, a check that objects: the failure handler is not called. -/
theorem C134_unreportedInitiator (e : TbConn) (hr : e.renewed = true) (hm : e.made = true) (hs : e.sslOk = true)
    (hf : e.shake = .other ∨ (e.shake = .done ∧ (e.peerCert = false ∨ e.post = some false))) :
    (Tb.new.run [.connect e]).reports = 0 ∧ tbFailures Tb.new [.connect e] = 1 := by
  obtain ⟨a, b, c, d, f, g, h, i⟩ := e
  cases hr; cases hm; cases hs
  rcases hf with rfl | ⟨rfl, rfl | rfl⟩
  · exact ⟨rfl, rfl⟩
  · exact ⟨rfl, rfl⟩
  · cases f <;> exact ⟨rfl, rfl⟩

/-- The connection is ended after `<proceed />` was sent and before the peer sends anything: its descriptor is never closed. -/
theorem C134_descriptorLost : let s := Tb.new.run [.start true true (some 1) (some 2), .shutdown, .release]
    s.phase = .gone ∧ s.socket = true := by decide +kernel

/-- The initiator cannot make the new connection: the old one is used on, with a descriptor that was closed. -/
theorem C134_descriptorClosed (e : TbConn) (he : e.renewed = false) : let s := Tb.new.run [.connect e]
    s.phase = .idle ∧ s.socket = false := by
  obtain ⟨a, b, c, d, f, g, h, i⟩ := e
  cases he
  exact ⟨rfl, rfl⟩

theorem C134_statement_false : ¬ C134_statement := by
  intro h
  have := (h [.start true true (some 1) (some 2), .shutdown, .release]).2.2.1 C134_descriptorLost.1
  rw [C134_descriptorLost.2] at this
  cases this.2

end Verif.Props
