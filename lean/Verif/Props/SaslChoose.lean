import Verif.Spec.SaslChoose
/-!
# C133: which function of the application decides about a SASL request
-/
namespace Verif.Props
open Verif.Model Verif.Spec

theorem aux_vh_foldl {α β : Type} (f : β → α → β) (P : β → Prop) (ops : List α) : ∀ s : β, P s → (∀ s, ∀ o ∈ ops, P s → P (f s o)) →
    P (ops.foldl f s) := by
  induction ops with
  | nil => intro s h _; exact h
  | cons o ops ih =>
    intro s h hs
    exact ih _ (hs s o List.mem_cons_self h) (fun s o ho => hs s o (List.mem_cons_of_mem _ ho))

theorem aux_vh_set {α : Type} (f : SaslMech → α) (m : SaslMech) (v : α) (k : SaslMech) : vhSet f m v k = if k = m then v else f k := rfl

theorem aux_vh_own (pw : Bool) (a b d : Option Nat) (ans : VhCall → Bool) :
    (∀ call ∈ (vhOwn pw a b d ans).1, a = some call.fn ∨ b = some call.fn) ∧
    ((vhOwn pw a b d ans).2 = true → ∃ call ∈ (vhOwn pw a b d ans).1, ans call = true) := by
  cases a <;> cases b <;> simp only [vhOwn] <;> repeat' split
  all_goals simp_all

/-- **C133**, part: in every history, the functions called for a request were set for its mechanism, none is called for a request without the
properties the mechanism needs, and a request is only granted if a function that was called said so. -/
theorem C133_sound_partial (ops : List VhOp) (c : Nat) (m : SaslMech) (complete : Bool) (answer : VhCall → Bool) :
    let s := Vh.new.run ops; let r := s.decide c m complete answer
    (∀ call ∈ r.1, complete = true ∧ ∃ o ∈ ops, VhSets m call.fn o) ∧ (r.2 = true → ∃ call ∈ r.1, answer call = true) := by
  have key : ∀ s : Vh, s = Vh.new.run ops → (∀ fn, s.simple m = some fn ∨ s.full m = some fn ∨ s.common m = some fn → ∃ o ∈ ops, VhSets m fn o) := by
    intro s hs
    subst hs
    refine aux_vh_foldl Vh.step (fun s => ∀ fn, s.simple m = some fn ∨ s.full m = some fn ∨ s.common m = some fn → ∃ o ∈ ops, VhSets m fn o)
      ops Vh.new (by simp [Vh.new]) ?_
    intro s o ho h fn
    cases o <;> simp only [Vh.step]
    case simple k h' =>
      split
      · intro hx
        by_cases hk : m = k
        · subst hk
          simp only [aux_vh_set, ↓reduceIte] at hx
          rcases hx with hx | hx
          · subst hx; exact ⟨_, ho, .inl rfl⟩
          · exact h fn (.inr hx)
        · simp only [aux_vh_set, hk, ↓reduceIte] at hx
          exact h fn hx
      · exact h fn
    case full k h' =>
      split
      · intro hx
        by_cases hk : m = k
        · subst hk
          simp only [aux_vh_set, ↓reduceIte] at hx
          rcases hx with hx | hx | hx
          · exact h fn (.inl hx)
          · subst hx; exact ⟨_, ho, .inr (.inl rfl)⟩
          · exact h fn (.inr (.inr hx))
        · simp only [aux_vh_set, hk, ↓reduceIte] at hx
          exact h fn hx
      · exact h fn
    case common k h' d =>
      intro hx
      by_cases hk : m = k
      · subst hk
        simp only [aux_vh_set, ↓reduceIte] at hx
        rcases hx with hx | hx | hx
        · exact h fn (.inl hx)
        · exact h fn (.inr (.inl hx))
        · cases hx; exact ⟨_, ho, .inr (.inr ⟨d, rfl⟩)⟩
      · simp only [aux_vh_set, hk, ↓reduceIte] at hx
        exact h fn hx
    case start c k => split <;> exact h fn
    case request c k q a => split <;> exact h fn
    all_goals exact h fn
  intro s r
  have hk := key s rfl
  have ho := aux_vh_own (vhPassword m) (s.simple m) (s.full m) (s.conns c m) answer
  simp only [r, Vh.decide]
  cases complete
  · simp
  · simp only [Bool.true_eq_false, ↓reduceIte, true_and]
    cases hcm : s.common m with
    | some h =>
      simp only [List.mem_singleton, forall_eq, exists_eq_left]
      exact ⟨hk h (.inr (.inr hcm)), id⟩
    | none =>
      refine ⟨fun call hcall => ?_, ho.2⟩
      rcases ho.1 call hcall with h | h
      · exact hk _ (.inl h)
      · exact hk _ (.inr (.inl h))

example : ((Vh.new.run [.init, .simple .plain (some 1), .full .cram (some 2), .accept .plain none]).decide 0 .plain true (fun c => c.fn == 1)) =
    ([⟨1, none⟩], true) := by decide +kernel

/-- What the state has when only one family is used. -/
structure VhRel (k : VhKind) (m : SaslMech) (s : Vh) (w d : Option Nat) : Prop where
  ready : s.ready = true
  simple : s.simple m = if k = .simple then w else none
  full : s.full m = if k = .full then w else none
  common : s.common m = if k = .common then w else none
  data : k = .common → s.commonData m = d

theorem aux_vh_rel (k : VhKind) (m : SaslMech) (ops : List VhOp) : ∀ (s : Vh) (w d : Option Nat), VhRel k m s w d → VhOnly k m ops →
    (∀ o ∈ ops, ∀ h, o ≠ .common m h none) →
    VhRel k m (s.run ops) (ops.foldl (vhWishStep m) w) (ops.foldl (vhDataStep m) d) := by
  induction ops with
  | nil => intro s w d h _ _; exact h
  | cons o ops ih =>
    intro s w d h ho hd
    refine ih _ _ _ ?_ (fun p hp => ho p (List.mem_cons_of_mem _ hp)) (fun p hp => hd p (List.mem_cons_of_mem _ hp))
    have h1 := ho o List.mem_cons_self
    have h2 := hd o List.mem_cons_self
    obtain ⟨i1, i2, i3, i4, i5⟩ := h
    have j1 := h1 .simple
    have j2 := h1 .full
    have j3 := h1 .common
    have h3 : ∀ h, o = VhOp.common m h none → False := fun h hx => h2 h hx
    clear h1 h2 ih ho hd
    cases o <;> simp only [Vh.step, vhWishStep, vhDataStep, vhKind] at j1 j2 j3 h3 ⊢
    all_goals
      repeat' split
      all_goals first
        | exact ⟨i1, i2, i3, i4, i5⟩
        | (constructor <;> simp only [aux_vh_set] <;> grind)
        | (simp at h3; constructor <;> simp only [aux_vh_set] <;> grind)

/-- **C133**, part: an application that uses only the calls without user data for a mechanism: the function it set last is called, alone, and
its answer counts; without one the request is refused. -/
theorem C133_simple_partial (ops : List VhOp) (c : Nat) (m : SaslMech) (answer : VhCall → Bool) (ho : VhOnly .simple m ops) :
    (Vh.new.run (.init :: ops)).decide c m true answer =
      match vhWish m ops with
      | some h => ([⟨h, none⟩], answer ⟨h, none⟩)
      | none => ([], false) := by
  have hd : ∀ o ∈ ops, ∀ h, o ≠ VhOp.common m h none := by
    intro o hm h hx
    subst hx
    have := ho _ hm .common (by simp [vhKind])
    cases this
  obtain ⟨i1, i2, i3, i4, i5⟩ := aux_vh_rel .simple m ops (Vh.new.step .init) none none (by constructor <;> simp [Vh.new, Vh.step]) ho hd
  change (Vh.new.run (.init :: ops)).simple m = _ at i2
  change (Vh.new.run (.init :: ops)).full m = _ at i3
  change (Vh.new.run (.init :: ops)).common m = _ at i4
  simp only [Vh.decide, i2, i3, i4, vhWish]
  cases List.foldl (vhWishStep m) none ops <;> simp [vhOwn]

example : VhOnly .simple .plain [.simple .plain (some 1), .accept .plain none, .full .cram (some 9), .simple .plain (some 2)] ∧
    vhWish .plain [.simple .plain (some 1), .accept .plain none, .full .cram (some 9), .simple .plain (some 2)] = some 2 := by
  refine ⟨?_, by decide⟩
  intro o ho j; simp at ho; rcases ho with h | h | h | h <;> subst h <;> simp [vhKind] <;> exact Eq.symm

/-- **C133**, part: an application that uses only the function for all mechanisms for a mechanism, always with user data: the one it set last
is called, with its data, alone, and its answer counts. -/
theorem C133_common_partial (ops : List VhOp) (c : Nat) (m : SaslMech) (answer : VhCall → Bool) (ho : VhOnly .common m ops)
    (hd : ∀ o ∈ ops, ∀ h, o ≠ .common m h none) :
    (Vh.new.run (.init :: ops)).decide c m true answer =
      match vhWish m ops with
      | some h => ([⟨h, vhWishData m ops⟩], answer ⟨h, vhWishData m ops⟩)
      | none => ([], false) := by
  obtain ⟨i1, i2, i3, i4, i5⟩ := aux_vh_rel .common m ops (Vh.new.step .init) none none (by constructor <;> simp [Vh.new, Vh.step]) ho hd
  change (Vh.new.run (.init :: ops)).simple m = _ at i2
  change (Vh.new.run (.init :: ops)).full m = _ at i3
  change (Vh.new.run (.init :: ops)).common m = _ at i4
  have i5 := i5 rfl
  change (Vh.new.run (.init :: ops)).commonData m = _ at i5
  simp only [Vh.decide, i2, i3, i4, i5, vhWish, vhWishData]
  cases List.foldl (vhWishStep m) none ops <;> simp [vhOwn]

example : (Vh.new.run (.init :: [.common .plain 1 (some 10), .common .cram 2 (some 20), .common .plain 3 (some 30)])).decide 0 .plain true (fun _ => true) =
    ([⟨3, some 30⟩], true) := by decide +kernel

theorem aux_vh_conns (c : Nat) (m : SaslMech) (d : Option Nat) (ops : List VhOp) : ∀ s : Vh, s.conns c m = d → .start c m ∉ ops →
    (s.run ops).conns c m = d := by
  induction ops with
  | nil => intro s h _; exact h
  | cons o ops ih =>
    intro s h ho
    simp only [List.mem_cons, not_or] at ho
    refine ih _ ?_ ho.2
    cases o <;> simp only [Vh.step]
    case start c' m' =>
      split
      · simp only
        split
        · rename_i hc; subst hc
          simp only [aux_vh_set]
          split
          · rename_i hm; subst hm; exact absurd rfl ho.1
          · exact h
        · exact h
      · exact h
    all_goals
      repeat' split
      all_goals exact h

theorem aux_vh_accepted (m : SaslMech) (d : Option (Option Nat)) (ops : List VhOp) : ∀ s : Vh, s.accepted m = d →
    (∀ e, .accept m e ∉ ops) → (∀ h e, .common m h e ∉ ops) → (s.run ops).accepted m = d := by
  induction ops with
  | nil => intro s h _ _; exact h
  | cons o ops ih =>
    intro s h h1 h2
    refine ih _ ?_ (fun e hm => h1 e (List.mem_cons_of_mem _ hm)) (fun g e hm => h2 g e (List.mem_cons_of_mem _ hm))
    cases o <;> simp only [Vh.step]
    case accept m' e =>
      simp only [aux_vh_set]
      split
      · rename_i hm; subst hm; exact absurd List.mem_cons_self (h1 e)
      · exact h
    case common m' g e =>
      simp only [aux_vh_set]
      split
      · rename_i hm; subst hm; exact absurd List.mem_cons_self (h2 g e)
      · exact h
    all_goals
      repeat' split
      all_goals exact h

theorem aux_vh_append (s : Vh) (a b : List VhOp) : s.run (a ++ b) = (s.run a).run b := by simp [Vh.run, List.foldl_append]

/-- **C133**, part: an application that uses only the calls with user data for a mechanism: the function it set last is called, alone, with
the user data with which the mechanism was accepted when the peer opened its channel, and its answer counts. -/
theorem C133_full_partial (a b e : List VhOp) (c : Nat) (m : SaslMech) (d : Option Nat) (answer : VhCall → Bool)
    (ho : VhOnly .full m (a ++ .accept m d :: b ++ .start c m :: e))
    (hb : ∀ x, .accept m x ∉ b) (he : .start c m ∉ e) :
    (Vh.new.run (.init :: (a ++ .accept m d :: b ++ .start c m :: e))).decide c m true answer =
      match vhWish m (a ++ .accept m d :: b ++ .start c m :: e) with
      | some h => ([⟨h, d⟩], answer ⟨h, d⟩)
      | none => ([], false) := by
  have hcm : ∀ o ∈ (a ++ .accept m d :: b ++ .start c m :: e), ∀ g x, o ≠ VhOp.common m g x := by
    intro o hm g x hx
    subst hx
    have := ho _ hm .common (by simp [vhKind])
    cases this
  obtain ⟨i1, i2, i3, i4, i5⟩ := aux_vh_rel .full m _ (Vh.new.step .init) none none (by constructor <;> simp [Vh.new, Vh.step]) ho
    (fun o hm g => hcm o hm g none)
  change (Vh.new.run (.init :: (a ++ .accept m d :: b ++ .start c m :: e))).simple m = _ at i2
  change (Vh.new.run (.init :: (a ++ .accept m d :: b ++ .start c m :: e))).full m = _ at i3
  change (Vh.new.run (.init :: (a ++ .accept m d :: b ++ .start c m :: e))).common m = _ at i4
  have hc : (Vh.new.run (.init :: (a ++ .accept m d :: b ++ .start c m :: e))).conns c m = d := by
    have h1 : Vh.new.run (.init :: (a ++ .accept m d :: b ++ .start c m :: e)) =
        ((((Vh.new.run (.init :: a)).step (.accept m d)).run b).step (.start c m)).run e := by
      rw [← List.cons_append, ← List.cons_append, aux_vh_append, aux_vh_append]; rfl
    rw [h1]
    have h2 := aux_vh_accepted m (some d) b ((Vh.new.run (.init :: a)).step (.accept m d)) (by simp [Vh.step, aux_vh_set]) hb
      (fun g x hm => hcm _ (by simp [hm]) g x rfl)
    refine aux_vh_conns c m d e _ ?_ he
    simp only [Vh.step] at h2 ⊢
    rw [h2]
    simp [aux_vh_set]
  simp only [Vh.decide, i2, i3, i4, hc, vhWish]
  cases List.foldl (vhWishStep m) none (a ++ .accept m d :: b ++ .start c m :: e) <;> simp [vhOwn]

example : (Vh.new.run (.init :: ([.full .digest (some 7)] ++ .accept .digest (some 70) :: [.start 4 .digest] ++ .start 3 .digest ::
    [.accept .digest (some 71), .start 4 .digest]))).decide 3 .digest true (fun c => c.data == some 70) = ([⟨7, some 70⟩], true) := by
  decide +kernel

/-- The full statement: no call uses NULL; for every request that has what its mechanism needs the function that was set last is called, alone;
if it was set for all mechanisms, with the user data given with it; and its answer counts. -/
def C133_statement : Prop := ∀ (ops : List VhOp) (c : Nat) (m : SaslMech) (answer : VhCall → Bool),
  let s := Vh.new.run ops; let r := s.decide c m true answer
  s.bad = false ∧
  (∀ h, vhWish m ops = some h → ∃ d, r = ([⟨h, d⟩], answer ⟨h, d⟩) ∧ (VhOnly .common m ops → d = vhWishData m ops)) ∧
  (vhWish m ops = none → r = ([], false))

/-- A stricter function with user data is set after one without: requests it refuses are granted because the first one accepts them, though it
is the last one that was set. -/
theorem C133_either : let ops : List VhOp := [.init, .simple .plain (some 1), .full .plain (some 2), .accept .plain none]
    vhWish .plain ops = some 2 ∧ ((Vh.new.run ops).decide 0 .plain true (fun c => c.fn == 1)) = ([⟨1, none⟩], true) := by decide +kernel

/-- For mechanisms with passwords the second function is never called. -/
theorem C133_first : let ops : List VhOp := [.init, .simple .cram (some 1), .full .cram (some 2), .accept .cram none]
    vhWish .cram ops = some 2 ∧ ∀ answer, ((Vh.new.run ops).decide 0 .cram true answer).1 = [⟨1, none⟩] := by
  refine ⟨by decide, fun answer => ?_⟩
  rfl

/-- A function for all mechanisms cannot be replaced by one for its mechanism, nor removed. -/
theorem C133_stays (m : SaslMech) (h : Nat) (d : Option Nat) (before after : List VhOp) (ha : ∀ g e, .common m g e ∉ after) (c : Nat)
    (answer : VhCall → Bool) : ∃ x, ((Vh.new.run (before ++ .common m h d :: after)).decide c m true answer).1 = [⟨h, x⟩] := by
  have key : ∀ (ops : List VhOp) (s : Vh), s.common m = some h → (∀ g e, .common m g e ∉ ops) → (s.run ops).common m = some h := by
    intro ops
    induction ops with
    | nil => intro s hs _; exact hs
    | cons o ops ih =>
      intro s hs ho
      refine ih _ ?_ (fun g e hm => ho g e (List.mem_cons_of_mem _ hm))
      cases o <;> simp only [Vh.step]
      case common m' g e =>
        simp only [aux_vh_set]
        split
        · rename_i hm; subst hm; exact absurd List.mem_cons_self (ho g e)
        · exact hs
      all_goals
        repeat' split
        all_goals exact hs
  rw [aux_vh_append]
  have := key after ((Vh.new.run before).step (.common m h d)) (by simp [Vh.step, aux_vh_set]) ha
  change ((Vh.new.run before).run (.common m h d :: after)).common m = some h at this
  simp only [Vh.decide, this]
  exact ⟨_, rfl⟩

/-- The function for all mechanisms is replaced by one without user data: the new one gets the user data of the old one. -/
theorem C133_stale : let ops : List VhOp := [.common .plain 1 (some 10), .common .plain 2 none]
    vhWish .plain ops = some 2 ∧ vhWishData .plain ops = none ∧
    ((Vh.new.run ops).decide 0 .plain true (fun _ => true)).1 = [⟨2, some 10⟩] := by decide +kernel

/-- A function set before SASL is started: NULL is used. -/
theorem C133_null : (Vh.new.run [.simple .plain (some 1), .accept .plain none]).bad = true := by decide +kernel

theorem C133_statement_false : ¬ C133_statement := by
  intro h
  have := (h [.simple .plain (some 1), .accept .plain none] 0 .plain (fun _ => true)).1
  rw [C133_null] at this
  cases this

end Verif.Props
