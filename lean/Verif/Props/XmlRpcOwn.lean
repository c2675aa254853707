import Verif.Spec.XmlRpcOwn
/-!
# C109: memory of XML-RPC values
-/
namespace Verif.Props
open Verif.Model Verif.Spec

/-- References to `o` inside the heap. -/
def aux_xv_kc : List XvObj → Nat → Nat
  | [], _ => 0
  | x :: h, o => x.kids.count o + aux_xv_kc h o

def aux_xv_rf (h : List XvObj) (o : Nat) : Nat := match h[o]? with | some x => x.refs | none => 0

def aux_xv_ok (x : XvObj) : Prop :=
  (x.live = true ↔ 0 < x.refs) ∧ (x.live = false → x.kids = []) ∧ (x.kind ≠ .struct ∧ x.kind ≠ .array → x.refs ≤ 1) ∧
  (x.kind = .int ∨ x.kind = .none ∨ x.kind = .text → x.kids = [])

structure aux_xv_I (h : List XvObj) (e : Nat → Nat) : Prop where
  cnt : ∀ a, aux_xv_rf h a = aux_xv_kc h a + e a
  ok : ∀ (o : Nat) (x : XvObj), h[o]? = some x → aux_xv_ok x
  acy : ∀ a, ¬ XvInside h a a

theorem aux_xv_rf_some {h : List XvObj} {o : Nat} {x : XvObj} (hx : h[o]? = some x) : aux_xv_rf h o = x.refs := by
  unfold aux_xv_rf; rw [hx]

theorem aux_xv_lt {h : List XvObj} {o : Nat} {x : XvObj} (hx : h[o]? = some x) : o < h.length := by
  rcases Nat.lt_or_ge o h.length with hl | hl
  · exact hl
  · rw [List.getElem?_eq_none hl] at hx; cases hx

theorem aux_xv_rf_big {h : List XvObj} {o : Nat} (hl : h.length ≤ o) : aux_xv_rf h o = 0 := by
  unfold aux_xv_rf; rw [List.getElem?_eq_none hl]

theorem aux_xv_kc_set (x' : XvObj) (a : Nat) : ∀ (h : List XvObj) (o : Nat) (x : XvObj), h[o]? = some x →
    aux_xv_kc (h.set o x') a + x.kids.count a = aux_xv_kc h a + x'.kids.count a := by
  intro h
  induction h with
  | nil => intro o x hx; simp at hx
  | cons y h ih =>
    intro o x hx
    cases o with
    | zero => simp at hx; subst hx; simp [aux_xv_kc]; omega
    | succ o => simp at hx; have := ih o x hx; simp [aux_xv_kc]; omega

theorem aux_xv_kc_mem (a : Nat) : ∀ (h : List XvObj) (o : Nat) (x : XvObj), h[o]? = some x → a ∈ x.kids → 0 < aux_xv_kc h a := by
  intro h
  induction h with
  | nil => intro o x hx; simp at hx
  | cons y h ih =>
    intro o x hx ha
    cases o with
    | zero => simp at hx; subst hx; have := List.count_pos_iff.2 ha; simp [aux_xv_kc]; omega
    | succ o => simp at hx; have := ih o x hx ha; simp [aux_xv_kc]; omega

theorem aux_xv_kc_pos (a : Nat) : ∀ (h : List XvObj), 0 < aux_xv_kc h a → ∃ (o : Nat) (x : XvObj), h[o]? = some x ∧ a ∈ x.kids := by
  intro h
  induction h with
  | nil => intro hp; simp [aux_xv_kc] at hp
  | cons y h ih =>
    intro hp
    rcases Nat.eq_zero_or_pos (y.kids.count a) with h0 | h0
    · simp [aux_xv_kc, h0] at hp
      obtain ⟨o, x, hx, ha⟩ := ih hp
      exact ⟨o + 1, x, by simpa using hx, ha⟩
    · exact ⟨0, y, rfl, List.count_pos_iff.1 h0⟩

theorem aux_xv_kc_app (a : Nat) (y : XvObj) : ∀ (h : List XvObj), aux_xv_kc (h ++ [y]) a = aux_xv_kc h a + y.kids.count a := by
  intro h
  induction h with
  | nil => simp [aux_xv_kc]
  | cons x h ih => simp [aux_xv_kc, ih]; omega

theorem aux_xv_total_set (x' : XvObj) : ∀ (h : List XvObj) (o : Nat) (x : XvObj), h[o]? = some x →
    xvTotal (h.set o x') + x.refs = xvTotal h + x'.refs := by
  intro h
  induction h with
  | nil => intro o x hx; simp at hx
  | cons y h ih =>
    intro o x hx
    cases o with
    | zero => simp at hx; subst hx; simp [xvTotal]; omega
    | succ o => simp at hx; have := ih o x hx; simp [xvTotal]; omega

theorem aux_xv_rf_set {h : List XvObj} {o : Nat} {x : XvObj} (hx : h[o]? = some x) (x' : XvObj) (a : Nat) :
    aux_xv_rf (h.set o x') a = if a = o then x'.refs else aux_xv_rf h a := by
  unfold aux_xv_rf
  rw [List.getElem?_set]
  have := aux_xv_lt hx
  by_cases hao : a = o
  · subst hao; simp [this]
  · simp [hao, Ne.symm hao]

/-! ## Parts of parts -/

theorem aux_xv_mono {h h' : List XvObj} (hs : ∀ (o : Nat) (x' : XvObj), h'[o]? = some x' → ∀ b ∈ x'.kids, ∃ x, h[o]? = some x ∧ b ∈ x.kids)
    {a b : Nat} (hi : XvInside h' a b) : XvInside h a b := by
  induction hi with
  | part hx hb => obtain ⟨x, h1, h2⟩ := hs _ _ hx _ hb; exact .part h1 h2
  | deeper _ hx hb ih => obtain ⟨x, h1, h2⟩ := hs _ _ hx _ hb; exact .deeper ih h1 h2

theorem aux_xv_set_mono {h : List XvObj} {o : Nat} {x : XvObj} (hx : h[o]? = some x) (x' : XvObj) (hk : ∀ b ∈ x'.kids, b ∈ x.kids)
    {a b : Nat} (hi : XvInside (h.set o x') a b) : XvInside h a b := by
  refine aux_xv_mono ?_ hi
  intro p y hy c hc
  rw [List.getElem?_set] at hy
  by_cases hpo : o = p
  · subst hpo
    rw [if_pos rfl, if_pos (aux_xv_lt hx)] at hy
    injection hy with hy; subst hy
    exact ⟨x, hx, hk _ hc⟩
  · rw [if_neg hpo] at hy; exact ⟨y, hy, hc⟩

theorem aux_xv_trans {h : List XvObj} {a b c : Nat} (h1 : XvInside h a b) (h2 : XvInside h b c) : XvInside h a c := by
  induction h2 with
  | part hx hb => exact .deeper h1 hx hb
  | deeper _ hx hb ih => exact .deeper ih hx hb

/-- One more part. -/
theorem aux_xv_add_inside {h : List XvObj} {c v : Nat} {x : XvObj} (hx : h[c]? = some x) (x' : XvObj) (hk : x'.kids = x.kids ++ [v])
    {a b : Nat} (hi : XvInside (h.set c x') a b) :
    XvInside h a b ∨ ((a = c ∨ XvInside h a c) ∧ (b = v ∨ XvInside h v b)) := by
  have edge : ∀ {p q : Nat} {y : XvObj}, (h.set c x')[p]? = some y → q ∈ y.kids → (∃ z, h[p]? = some z ∧ q ∈ z.kids) ∨ (p = c ∧ q = v) := by
    intro p q y hy hq
    rw [List.getElem?_set] at hy
    by_cases hpo : c = p
    · subst hpo
      rw [if_pos rfl, if_pos (aux_xv_lt hx)] at hy
      injection hy with hy; subst hy
      rw [hk, List.mem_append, List.mem_singleton] at hq
      rcases hq with hq | hq
      · exact .inl ⟨x, hx, hq⟩
      · exact .inr ⟨rfl, hq⟩
    · rw [if_neg hpo] at hy; exact .inl ⟨y, hy, hq⟩
  induction hi with
  | part hy hb =>
    rcases edge hy hb with ⟨z, h1, h2⟩ | ⟨h1, h2⟩
    · exact .inl (.part h1 h2)
    · exact .inr ⟨.inl h1, .inl h2⟩
  | deeper _ hy hb ih =>
    rcases edge hy hb with ⟨z, h1, h2⟩ | ⟨h1, h2⟩
    · rcases ih with ih | ⟨i1, i2⟩
      · exact .inl (.deeper ih h1 h2)
      · rcases i2 with i2 | i2
        · subst i2; exact .inr ⟨i1, .inr (.part h1 h2)⟩
        · exact .inr ⟨i1, .inr (.deeper i2 h1 h2)⟩
    · rcases ih with ih | ⟨i1, _⟩
      · subst h1; exact .inr ⟨.inr ih, .inl h2⟩
      · exact .inr ⟨i1, .inl h2⟩

/-- A new object. -/
theorem aux_xv_app_inside {h : List XvObj} (y : XvObj) (hk : ∀ (o : Nat) (x : XvObj), h[o]? = some x → ∀ b ∈ x.kids, b < h.length)
    (hy : ∀ b ∈ y.kids, b < h.length) {a b : Nat} (hi : XvInside (h ++ [y]) a b) : b < h.length ∧ (a ≠ h.length → XvInside h a b) := by
  have edge : ∀ {p q : Nat} {z : XvObj}, (h ++ [y])[p]? = some z → q ∈ z.kids → q < h.length ∧ (p ≠ h.length → h[p]? = some z) := by
    intro p q z hz hq
    rcases Nat.lt_or_ge p h.length with hl | hl
    · rw [List.getElem?_append_left hl] at hz
      exact ⟨hk _ _ hz _ hq, fun _ => hz⟩
    · rw [List.getElem?_append_right hl] at hz
      rcases Nat.eq_or_lt_of_le hl with he | he
      · rw [← he] at hz; simp at hz; subst hz
        exact ⟨hy _ hq, fun hne => absurd he.symm hne⟩
      · have : p - h.length ≠ 0 := by omega
        obtain ⟨m, hm⟩ := Nat.exists_eq_succ_of_ne_zero this
        rw [hm] at hz; simp at hz
  induction hi with
  | part hz hb => exact ⟨(edge hz hb).1, fun hne => .part ((edge hz hb).2 hne) hb⟩
  | deeper _ hz hb ih => exact ⟨(edge hz hb).1, fun hne => .deeper (ih.2 hne) ((edge hz hb).2 (Nat.ne_of_lt ih.1)) hb⟩

/-! ## The invariant -/

theorem aux_xv_kid_lt {h : List XvObj} {e : Nat → Nat} (I : aux_xv_I h e) (o : Nat) (x : XvObj) (hx : h[o]? = some x) (b : Nat)
    (hb : b ∈ x.kids) : b < h.length := by
  rcases Nat.lt_or_ge b h.length with hl | hl
  · exact hl
  · have h1 := I.cnt b
    rw [aux_xv_rf_big hl] at h1
    have := aux_xv_kc_mem b h o x hx hb
    omega

theorem aux_xv_e_lt {h : List XvObj} {e : Nat → Nat} (I : aux_xv_I h e) {b : Nat} (hb : 0 < e b) : b < h.length := by
  rcases Nat.lt_or_ge b h.length with hl | hl
  · exact hl
  · have h1 := I.cnt b
    rw [aux_xv_rf_big hl] at h1
    omega

theorem aux_xv_live {h : List XvObj} {e : Nat → Nat} (I : aux_xv_I h e) {b : Nat} (hb : 0 < aux_xv_kc h b + e b) :
    ∃ x, h[b]? = some x ∧ x.live = true := by
  have h1 := I.cnt b
  rcases Nat.lt_or_ge b h.length with hl | hl
  · obtain ⟨x, hx⟩ : ∃ x, h[b]? = some x := ⟨_, List.getElem?_eq_getElem hl⟩
    rw [aux_xv_rf_some hx] at h1
    exact ⟨x, hx, (I.ok _ _ hx).1.2 (by omega)⟩
  · rw [aux_xv_rf_big hl] at h1; omega

theorem aux_xv_ext {h : List XvObj} {e e' : Nat → Nat} (I : aux_xv_I h e) (he : ∀ a, e' a = e a) : aux_xv_I h e' :=
  ⟨fun a => by rw [he]; exact I.cnt a, I.ok, I.acy⟩

theorem aux_xv_set_ok {h : List XvObj} {o : Nat} {x : XvObj} (hx : h[o]? = some x) (x' : XvObj)
    (hh : ∀ (o : Nat) (x : XvObj), h[o]? = some x → aux_xv_ok x) (hx' : aux_xv_ok x') (p : Nat) (y : XvObj)
    (hy : (h.set o x')[p]? = some y) : aux_xv_ok y := by
  rw [List.getElem?_set] at hy
  by_cases hpo : o = p
  · subst hpo
    rw [if_pos rfl, if_pos (aux_xv_lt hx)] at hy
    injection hy with hy; subst hy; exact hx'
  · rw [if_neg hpo] at hy; exact hh _ _ hy

theorem aux_xv_make {h : List XvObj} {e e' : Nat → Nat} (I : aux_xv_I h e) (y : XvObj) (hr : y.refs = 1) (hok : aux_xv_ok y)
    (hk : ∀ a, y.kids.count a ≤ e a) (he : ∀ a, e' a = e a - y.kids.count a + if a = h.length then 1 else 0) :
    aux_xv_I (h ++ [y]) e' := by
  have hbig : ∀ a, h.length ≤ a → e a = 0 ∧ aux_xv_kc h a = 0 := by
    intro a ha
    have := I.cnt a
    rw [aux_xv_rf_big ha] at this
    omega
  have hy : ∀ b ∈ y.kids, b < h.length := by
    intro b hb
    have h3 := List.count_pos_iff.2 hb
    have h4 := hk b
    exact aux_xv_e_lt I (by omega)
  refine ⟨?_, ?_, ?_⟩
  · intro a
    rw [aux_xv_kc_app, he a]
    have h1 := I.cnt a
    have h2 := hk a
    rcases Nat.lt_trichotomy a h.length with hl | hl | hl
    · have : aux_xv_rf (h ++ [y]) a = aux_xv_rf h a := by unfold aux_xv_rf; rw [List.getElem?_append_left hl]
      rw [this, if_neg (Nat.ne_of_lt hl)]; omega
    · have h3 : aux_xv_rf (h ++ [y]) a = 1 := by unfold aux_xv_rf; subst hl; simp [hr]
      have h4 := hbig a (Nat.le_of_eq hl.symm)
      rw [h3, if_pos hl]; omega
    · have h3 : aux_xv_rf (h ++ [y]) a = 0 := aux_xv_rf_big (by simp; omega)
      have h4 := hbig a (Nat.le_of_lt hl)
      rw [h3, if_neg (by omega)]; omega
  · intro o x hx
    rcases Nat.lt_or_ge o h.length with hl | hl
    · rw [List.getElem?_append_left hl] at hx; exact I.ok _ _ hx
    · rw [List.getElem?_append_right hl] at hx
      have := List.mem_of_getElem? hx
      rw [List.mem_singleton] at this
      subst this; exact hok
  · intro a ha
    have h1 := aux_xv_app_inside y (fun o x hx b hb => aux_xv_kid_lt I o x hx b hb) hy ha
    exact I.acy a (h1.2 (Nat.ne_of_lt h1.1))

/-- The number of references or the parts of an object change, and no cycle is made. -/
theorem aux_xv_set {h : List XvObj} {e e' : Nat → Nat} (I : aux_xv_I h e) {o : Nat} {x : XvObj} (hx : h[o]? = some x) (x' : XvObj)
    (hok : aux_xv_ok x') (hacy : ∀ a, ¬ XvInside (h.set o x') a a)
    (he : ∀ a, x'.kids.count a + e' a + (if a = o then x.refs else 0) = x.kids.count a + e a + (if a = o then x'.refs else 0)) :
    aux_xv_I (h.set o x') e' := by
  refine ⟨?_, aux_xv_set_ok hx x' I.ok hok, hacy⟩
  intro a
  have h1 := I.cnt a
  have h2 := aux_xv_kc_set x' a h o x hx
  have h3 := he a
  rw [aux_xv_rf_set hx]
  by_cases hao : a = o
  · subst hao
    rw [aux_xv_rf_some hx] at h1
    simp only [if_pos] at h3 ⊢
    omega
  · rw [if_neg hao, if_neg hao] at h3
    rw [if_neg hao]; omega

/-- References given up. -/
theorem aux_xv_free : ∀ (n : Nat) (p : List Nat) (h : List XvObj) (e : Nat → Nat), aux_xv_I h (fun a => e a + p.count a) → xvTotal h < n →
    aux_xv_I (xvFree n p h).1 e ∧ (xvFree n p h).2.2 = false := by
  intro n
  induction n with
  | zero => intro p h e _ hn; omega
  | succ n ih =>
    intro p h e I hn
    cases p with
    | nil => exact ⟨aux_xv_ext I (fun a => by simp), rfl⟩
    | cons o p =>
      obtain ⟨x, hx, hlive⟩ := aux_xv_live (b := o) I (by simp; omega)
      have hok := I.ok _ _ hx
      have hpos : 0 < x.refs := hok.1.1 hlive
      simp only [xvFree, hx]
      rw [if_neg (by simp [hlive])]
      by_cases hc : x.kind ≠ .struct ∧ x.kind ≠ .array ∨ x.refs ≤ 1
      · rw [if_pos hc]
        have h1 : x.refs = 1 := by
          rcases hc with hc | hc
          · have := hok.2.2.1 hc; omega
          · omega
        refine ih _ _ _ ?_ ?_
        · refine aux_xv_set I hx _ ⟨by simp, fun _ => rfl, fun _ => Nat.zero_le _, fun _ => rfl⟩ ?_ ?_
          · intro a ha
            exact I.acy a (aux_xv_set_mono hx _ (by simp) ha)
          · intro a
            simp only [List.count_nil, List.count_append, List.count_cons, h1]
            by_cases hao : a = o
            · subst hao; simp; omega
            · simp [hao, Ne.symm hao]; omega
        · have := aux_xv_total_set { x with refs := 0, kids := [], live := false } h o x hx
          simp only at this
          omega
      · rw [if_neg hc]
        have h1 : 1 < x.refs := by
          rcases Nat.lt_or_ge 1 x.refs with h1 | h1
          · exact h1
          · exact absurd (.inr h1) hc
        refine ih _ _ _ ?_ ?_
        · refine aux_xv_set I hx _ ⟨?_, ?_, ?_, hok.2.2.2⟩ ?_ ?_
          · simp [hlive]; omega
          · simp [hlive]
          · intro hk; have := hok.2.2.1 hk; omega
          · intro a ha
            exact I.acy a (aux_xv_set_mono hx { x with refs := x.refs - 1 } (fun b hb => hb) ha)
          · intro a
            simp only [List.count_cons]
            by_cases hao : a = o
            · subst hao; simp; omega
            · simp [hao, Ne.symm hao]
        · have := aux_xv_total_set { x with refs := x.refs - 1 } h o x hx
          simp only at this
          omega

/-- The invariant of a state. -/
def aux_xv_S (s : XvState) : Prop := aux_xv_I s.heap (fun a => s.held.count a) ∧ s.bad = false

theorem aux_xv_count_cons (b : Nat) (l : List Nat) (a : Nat) : (b :: l).count a = l.count a + if a = b then 1 else 0 := by
  rw [List.count_cons]
  by_cases hab : a = b
  · subst hab; simp
  · simp [hab, Ne.symm hab]

theorem aux_xv_erase {l : List Nat} {o : Nat} (ho : o ∈ l) (a : Nat) : l.count a = (l.erase o).count a + if a = o then 1 else 0 := by
  rw [List.count_erase]
  by_cases hao : a = o
  · subst hao
    have := List.count_pos_iff.2 ho
    simp; omega
  · simp [hao, Ne.symm hao]

theorem aux_xv_release {s : XvState} (hb : s.bad = false) {o : Nat}
    (I : aux_xv_I s.heap (fun a => s.held.count a + if a = o then 1 else 0)) : aux_xv_S (s.release o) := by
  have h := aux_xv_free (xvTotal s.heap + 1) [o] s.heap (fun a => s.held.count a)
    (aux_xv_ext I (fun a => by rw [aux_xv_count_cons]; simp)) (Nat.lt_succ_self _)
  refine ⟨h.1, ?_⟩
  show (s.bad || _) = false
  rw [hb, h.2]; rfl

theorem aux_xv_release_held {s : XvState} (S : aux_xv_S s) {o : Nat} (ho : o ∈ s.held) :
    aux_xv_S (XvState.release { s with held := s.held.erase o } o) := by
  refine aux_xv_release (s := { s with held := s.held.erase o }) S.2 ?_
  exact aux_xv_ext S.1 (fun a => (aux_xv_erase ho a).symm)

theorem aux_xv_make_S {s : XvState} (S : aux_xv_S s) (k : XvKind) (cap : Nat) (hk : True) : aux_xv_S (s.make k cap []) := by
  refine ⟨aux_xv_make S.1 _ rfl ⟨by simp, by simp, by simp, by simp⟩ (by simp) ?_, S.2⟩
  intro a
  show (s.heap.length :: s.held).count a = _
  rw [aux_xv_count_cons]; simp

/-- A new object that takes one the application owns. -/
theorem aux_xv_take {s : XvState} (S : aux_xv_S s) (k : XvKind) (hk : ¬ (k = .int ∨ k = .none ∨ k = .text)) {t : Nat} (ht : t ∈ s.held) :
    aux_xv_S (XvState.make { s with held := s.held.erase t } k 0 [t]) := by
  have hc := aux_xv_erase ht
  refine ⟨aux_xv_make S.1 _ rfl ⟨by simp, by simp, by simp, fun h => absurd h hk⟩ ?_ ?_, S.2⟩
  · intro a
    have := hc a
    show [t].count a ≤ s.held.count a
    rw [aux_xv_count_cons, List.count_nil]; omega
  · intro a
    have := hc a
    show (s.heap.length :: s.held.erase t).count a = s.held.count a - [t].count a + if a = s.heap.length then 1 else 0
    rw [aux_xv_count_cons, aux_xv_count_cons t [], List.count_nil]; omega

theorem aux_xv_two {s : XvState} (S : aux_xv_S s) (k : XvKind) (hk : ¬ (k = .int ∨ k = .none ∨ k = .text)) :
    aux_xv_S { s with heap := s.heap ++ [⟨.text, 1, 0, [], true⟩] ++ [⟨k, 1, 0, [s.heap.length], true⟩], held := (s.heap.length + 1) :: s.held } := by
  have h1 := aux_xv_take (aux_xv_make_S S .text 0 trivial) k hk (t := s.heap.length) (by simp [XvState.make])
  refine ⟨aux_xv_ext h1.1 ?_, S.2⟩
  intro a
  simp [XvState.make]

theorem aux_xv_reach {s : XvState} (S : aux_xv_S s) {o : Nat} (ho : XvReach s o) : ∃ x, s.heap[o]? = some x ∧ x.live = true ∧ s.obj o = some x := by
  have : ∃ x, s.heap[o]? = some x ∧ x.live = true := by
    rcases ho with ho | ⟨a, _, hi⟩
    · have := List.count_pos_iff.2 ho
      exact aux_xv_live S.1 (by omega)
    · have : ∃ (p : Nat) (y : XvObj), s.heap[p]? = some y ∧ o ∈ y.kids := by
        cases hi with
        | part hx hb => exact ⟨_, _, hx, hb⟩
        | deeper _ hx hb => exact ⟨_, _, hx, hb⟩
      obtain ⟨p, y, hy, hb⟩ := this
      have := aux_xv_kc_mem o _ p y hy hb
      exact aux_xv_live S.1 (by omega)
  obtain ⟨x, hx, hl⟩ := this
  exact ⟨x, hx, hl, by simp [XvState.obj, hx, hl]⟩

theorem aux_xv_add {s : XvState} (S : aux_xv_S s) {c v : Nat} {x : XvObj} (hx : s.heap[c]? = some x) (hl : x.live = true)
    (hk : x.kind = .struct ∨ x.kind = .array) (hv : v ∈ s.held) (hcv : c ≠ v) (hn : ¬ XvInside s.heap v c) :
    aux_xv_S { s with heap := s.heap.set c { x with kids := x.kids ++ [v] }, held := s.held.erase v } := by
  have hok := S.1.ok _ _ hx
  refine ⟨aux_xv_set S.1 hx _ ⟨hok.1, ?_, hok.2.2.1, ?_⟩ ?_ ?_, S.2⟩
  · intro h; rw [hl] at h; cases h
  · intro h; rcases hk with hk | hk <;> rw [hk] at h <;> simp at h
  · intro a ha
    rcases aux_xv_add_inside hx { x with kids := x.kids ++ [v] } rfl ha with h | ⟨h1, h2⟩
    · exact S.1.acy a h
    · rcases h1 with h1 | h1 <;> rcases h2 with h2 | h2
      · exact hcv (h1.symm.trans h2)
      · subst h1; exact hn h2
      · subst h2; exact hn h1
      · exact hn (aux_xv_trans h2 h1)
  · intro a
    have := aux_xv_erase hv a
    show (x.kids ++ [v]).count a + (s.held.erase v).count a + _ = _
    rw [List.count_append, aux_xv_count_cons v [], List.count_nil]
    simp only []
    omega

theorem aux_xv_bump {s : XvState} {e : Nat → Nat} (I : aux_xv_I s.heap e) {c : Nat} {x : XvObj} (hx : s.heap[c]? = some x) (hl : x.live = true)
    (hk : x.kind = .struct ∨ x.kind = .array) :
    aux_xv_I (s.heap.set c { x with refs := x.refs + 1 }) (fun a => e a + if a = c then 1 else 0) := by
  have hok := I.ok _ _ hx
  refine aux_xv_set I hx _ ⟨by simp [hl], hok.2.1, ?_, hok.2.2.2⟩ ?_ ?_
  · intro h; rcases hk with hk | hk
    · exact absurd hk h.1
    · exact absurd hk h.2
  · intro a ha
    exact I.acy a (aux_xv_set_mono hx { x with refs := x.refs + 1 } (fun b hb => hb) ha)
  · intro a
    by_cases hac : a = c
    · simp only [hac, if_true]; omega
    · simp only [if_neg hac]; omega

theorem aux_xv_use {s : XvState} (S : aux_xv_S s) {o : Nat} {x : XvObj} (hx : s.heap[o]? = some x) {v : Nat} (hv : v ∈ x.kids) :
    ∃ y, s.heap[v]? = some y ∧ y.live = true ∧ s.obj v = some y := by
  have h0 := aux_xv_kc_mem v _ o x hx hv
  obtain ⟨y, hy, hl⟩ := aux_xv_live S.1 (b := v) (by omega)
  exact ⟨y, hy, hl, by simp [XvState.obj, hy, hl]⟩

theorem aux_xv_is {s : XvState} {o : Nat} {x : XvObj} (hx : s.heap[o]? = some x) {ks : List XvKind} (h : XvIs s o ks) : x.kind ∈ ks := by
  obtain ⟨y, hy, hk⟩ := h
  rw [hx] at hy; injection hy with hy; subst hy; exact hk

/-- A struct or array holds values, a value that holds a struct or array has it as its part. -/
def aux_xv_T (s : XvState) : Prop := ∀ (o : Nat) (x : XvObj), s.heap[o]? = some x → x.kind = .ofStruct ∨ x.kind = .ofArray →
  ∀ c ∈ x.kids, XvIs s c [.struct, .array]

theorem aux_xv_step {s : XvState} (S : aux_xv_S s) (T : aux_xv_T s) (op : XvOp) (hd : XvDocumented s op) (hc : XvCareful s op) :
    aux_xv_S (s.step op) := by
  cases op with
  | text => exact aux_xv_make_S S _ _ trivial
  | intNew => exact aux_xv_make_S S _ _ trivial
  | noneNew => exact aux_xv_make_S S _ _ trivial
  | stringNew b => exact aux_xv_two S _ (by cases b <;> simp)
  | stringRef b t => exact aux_xv_take S _ (by cases b <;> simp) hd.1
  | holdNew c =>
    obtain ⟨x, hx, hl, ho⟩ := aux_xv_reach S (.inl hd.1)
    simp only [XvState.step, ho]
    exact aux_xv_take S _ (by split <;> simp) hd.1
  | structNew cap =>
    simp only [XvState.step]
    split
    · exact S
    · exact aux_xv_make_S S _ _ trivial
  | arrayNew cap => exact aux_xv_make_S S _ _ trivial
  | add c v =>
    obtain ⟨h1, h2, h3, h4, h5⟩ := hd
    obtain ⟨x, hx, hl, ho⟩ := aux_xv_reach S h1
    have hk := aux_xv_is hx h2
    simp only [XvState.step, ho]
    rw [if_pos (hc x hx)]
    refine aux_xv_add S hx hl (by simpa using hk) h3 ?_ h5
    intro he; subst he
    have := aux_xv_is hx h4
    simp [xvValues] at this hk
    rcases hk with hk | hk <;> rw [hk] at this <;> simp at this
  | ref c =>
    obtain ⟨x, hx, hl, ho⟩ := aux_xv_reach S hd.1
    have hk := aux_xv_is hx hd.2
    simp only [XvState.step, ho]
    exact ⟨aux_xv_ext (aux_xv_bump S.1 hx hl (by simpa using hk)) (fun a => aux_xv_count_cons c s.held a), S.2⟩
  | copy v =>
    obtain ⟨x, hx, hl, ho⟩ := aux_xv_reach S hd.1
    simp only [XvState.step, ho]
    by_cases h1 : x.kind = .string ∨ x.kind = .base64
    · rw [if_pos h1]
      exact aux_xv_two S _ (by rcases h1 with h1 | h1 <;> simp [h1])
    · rw [if_neg h1]
      by_cases h2 : x.kind = .ofStruct ∨ x.kind = .ofArray
      · rw [if_pos h2]
        split
        · rename_i c hkc
          obtain ⟨y, hy, hyl, hyo⟩ := aux_xv_use S hx (v := c) (by simp [hkc])
          have hyk := aux_xv_is hy (T _ _ hx h2 c (by simp [hkc]))
          rw [hyo]
          have hb := aux_xv_bump S.1 hy hyl (by simpa using hyk)
          refine ⟨aux_xv_make hb ⟨x.kind, 1, 0, [c], true⟩ rfl ⟨by simp, by simp, by simp, ?_⟩ ?_ ?_, S.2⟩
          · intro h; rcases h2 with h2 | h2 <;> simp [h2] at h
          · intro a
            show [c].count a ≤ _
            rw [aux_xv_count_cons, List.count_nil]; omega
          · intro a
            show ((s.heap.set c _).length :: s.held).count a = _ - [c].count a + _
            rw [aux_xv_count_cons, aux_xv_count_cons c [], List.count_nil]; omega
        · exact aux_xv_make_S S _ _ trivial
      · rw [if_neg h2]; exact aux_xv_make_S S _ _ trivial
  | respond v => exact aux_xv_take S _ (by simp) hd.1
  | free o => exact aux_xv_release_held S hd
  | use o =>
    obtain ⟨x, hx, hl, ho⟩ := aux_xv_reach S hd
    simp only [XvState.step, ho]; exact S
  | memberAt o i =>
    obtain ⟨x, hx, hl, ho⟩ := aux_xv_reach S hd.1
    simp only [XvState.step, ho]
    split
    · exact S
    · rename_i h
      rcases hc x hx with h1 | h1
      · rw [if_pos h1]; exact S
      · exact absurd h1 h
  | unmarshall r => exact aux_xv_release_held S hd.1
  | unmarshallString r =>
    obtain ⟨x, hx, hl, ho⟩ := aux_xv_reach S (.inl hd.1)
    simp only [XvState.step, ho]
    split
    · rename_i v hv
      obtain ⟨y, hy, hyl, hyo⟩ := aux_xv_use S hx (v := v) (by simp [hv])
      have hyk := aux_xv_is hy (hc x v hx (by simp [hv]))
      have hok := S.1.ok _ _ hy
      have hrest : aux_xv_S { s with heap := s.heap.set v { y with kids := [] }, held := y.kids ++ s.held } := by
        refine ⟨aux_xv_set S.1 hy _ ⟨hok.1, fun _ => rfl, hok.2.2.1, fun _ => rfl⟩ ?_ ?_, S.2⟩
        · intro a ha
          exact S.1.acy a (aux_xv_set_mono hy _ (by simp) ha)
        · intro a
          show ([] : List Nat).count a + (y.kids ++ s.held).count a + _ = _
          rw [List.count_append]; simp
      have her : ∀ a, (y.kids ++ s.held.erase r).count a + (if a = r then 1 else 0) = (y.kids ++ s.held).count a := by
        intro a
        have := aux_xv_erase hd.1 a
        rw [List.count_append, List.count_append]; omega
      rw [hyo]
      simp only []
      by_cases hs : y.kind = .string
      · rw [if_pos hs]
        exact aux_xv_release (s := { s with heap := s.heap.set v { y with kids := [] }, held := y.kids ++ s.held.erase r }) S.2
          (aux_xv_ext hrest.1 her)
      · rw [if_neg hs]
        have hnil : y.kids = [] := by
          refine hok.2.2.2 ?_
          simp at hyk
          rcases hyk with h | h | h
          · exact .inl h
          · exact absurd h hs
          · exact .inr (.inl h)
        rw [hnil] at her
        refine aux_xv_release (s := { s with heap := s.heap.set v { y with kids := [] }, held := s.held.erase r }) S.2 ?_
        refine aux_xv_ext hrest.1 (fun a => ?_)
        have := her a
        rw [hnil]; simpa using this
    · exact aux_xv_release_held S hd.1
  | unmarshallPlain r =>
    obtain ⟨x, hx, hl, ho⟩ := aux_xv_reach S (.inl hd.1)
    simp only [XvState.step, ho]
    split
    · rename_i v hv
      obtain ⟨y, hy, hyl, hyo⟩ := aux_xv_use S hx (v := v) (by simp [hv])
      have hyk := aux_xv_is hy (hc x v hx (by simp [hv]))
      rw [hyo]
      simp only []
      rw [if_neg (by intro h; rcases h with h | h <;> simp [h] at hyk)]
      exact aux_xv_release_held S hd.1
    · exact aux_xv_release_held S hd.1

/-! ## Kinds -/

def aux_xv_K (h h' : List XvObj) : Prop :=
  (∀ (o : Nat) (x : XvObj), h[o]? = some x → ∃ x', h'[o]? = some x' ∧ x'.kind = x.kind) ∧
  (∀ (o : Nat) (x' : XvObj), h'[o]? = some x' → x'.kind = .ofStruct ∨ x'.kind = .ofArray → ∀ c ∈ x'.kids,
    (∃ x, h[o]? = some x ∧ x.kind = x'.kind ∧ c ∈ x.kids) ∨ ∃ y, h'[c]? = some y ∧ (y.kind = .struct ∨ y.kind = .array))

theorem aux_xv_K_refl (h : List XvObj) : aux_xv_K h h :=
  ⟨fun _ x hx => ⟨x, hx, rfl⟩, fun _ x hx _ _ hc => .inl ⟨x, hx, rfl, hc⟩⟩

theorem aux_xv_K_trans {h h' h'' : List XvObj} (h1 : aux_xv_K h h') (h2 : aux_xv_K h' h'') : aux_xv_K h h'' := by
  constructor
  · intro o x hx
    obtain ⟨x', hx', hk⟩ := h1.1 o x hx
    obtain ⟨x'', hx'', hk'⟩ := h2.1 o x' hx'
    exact ⟨x'', hx'', hk'.trans hk⟩
  · intro o x'' hx'' hk c hc
    rcases h2.2 o x'' hx'' hk c hc with ⟨x', hx', hkk, hc'⟩ | h
    · rcases h1.2 o x' hx' (by rw [hkk]; exact hk) c hc' with ⟨x, hx, hkx, hcx⟩ | ⟨y, hy, hky⟩
      · exact .inl ⟨x, hx, hkx.trans hkk, hcx⟩
      · obtain ⟨y', hy', hk'⟩ := h2.1 c y hy
        exact .inr ⟨y', hy', by rw [hk']; exact hky⟩
    · exact .inr h

theorem aux_xv_K_set {h : List XvObj} {o : Nat} {x : XvObj} (hx : h[o]? = some x) (x' : XvObj) (hk : x'.kind = x.kind)
    (hs : (x.kind = .struct ∨ x.kind = .array) ∨ ∀ c ∈ x'.kids, c ∈ x.kids) : aux_xv_K h (h.set o x') := by
  have hl := aux_xv_lt hx
  constructor
  · intro p y hy
    by_cases hpo : o = p
    · subst hpo
      rw [hx] at hy; injection hy with hy; subst hy
      exact ⟨x', by simp [hl], hk⟩
    · exact ⟨y, by rw [List.getElem?_set, if_neg hpo]; exact hy, rfl⟩
  · intro p y hy hky c hc
    rw [List.getElem?_set] at hy
    by_cases hpo : o = p
    · subst hpo
      rw [if_pos rfl, if_pos hl] at hy
      injection hy with hy; subst hy
      rcases hs with hs | hs
      · rw [hk] at hky
        rcases hs with hs | hs <;> rw [hs] at hky <;> simp at hky
      · exact .inl ⟨x, hx, hk.symm, hs c hc⟩
    · rw [if_neg hpo] at hy; exact .inl ⟨y, hy, rfl, hc⟩

theorem aux_xv_K_app (h : List XvObj) (y : XvObj)
    (hy : (y.kind = .ofStruct ∨ y.kind = .ofArray) → ∀ c ∈ y.kids, ∃ z, h[c]? = some z ∧ (z.kind = .struct ∨ z.kind = .array)) :
    aux_xv_K h (h ++ [y]) := by
  have left : ∀ {p : Nat} {z : XvObj}, h[p]? = some z → (h ++ [y])[p]? = some z := by
    intro p z hz
    rw [List.getElem?_append_left (aux_xv_lt hz)]; exact hz
  constructor
  · intro o x hx; exact ⟨x, left hx, rfl⟩
  · intro o x hx hk c hc
    rcases Nat.lt_or_ge o h.length with hl | hl
    · rw [List.getElem?_append_left hl] at hx
      exact .inl ⟨x, hx, rfl, hc⟩
    · rw [List.getElem?_append_right hl] at hx
      have := List.mem_of_getElem? hx
      rw [List.mem_singleton] at this
      subst this
      obtain ⟨z, hz, hzk⟩ := hy hk c hc
      exact .inr ⟨z, left hz, hzk⟩

theorem aux_xv_K_free : ∀ (n : Nat) (p : List Nat) (h : List XvObj), aux_xv_K h (xvFree n p h).1 := by
  intro n
  induction n with
  | zero => intro p h; exact aux_xv_K_refl h
  | succ n ih =>
    intro p h
    cases p with
    | nil => exact aux_xv_K_refl h
    | cons o p =>
      simp only [xvFree]
      split
      · exact aux_xv_K_refl h
      · rename_i x hx
        split
        · exact aux_xv_K_refl h
        · split
          · exact aux_xv_K_trans (aux_xv_K_set hx { x with refs := 0, kids := [], live := false } rfl (.inr (by simp))) (ih _ _)
          · exact aux_xv_K_trans (aux_xv_K_set hx { x with refs := x.refs - 1 } rfl (.inr (fun _ hc => hc))) (ih _ _)

theorem aux_xv_obj {s : XvState} {o : Nat} {x : XvObj} (h : s.obj o = some x) : s.heap[o]? = some x := by
  unfold XvState.obj at h
  split at h
  · cases h
  · rename_i y hy
    split at h
    · injection h with h; subst h; exact hy
    · cases h

theorem aux_xv_K_step {s : XvState} (T : aux_xv_T s) (op : XvOp) (hd : XvDocumented s op) : aux_xv_K s.heap (s.step op).heap := by
  have nil : ∀ (k : XvKind) (cap : Nat), aux_xv_K s.heap (s.make k cap []).heap := fun k cap => aux_xv_K_app _ _ (by simp)
  have two : ∀ (k : XvKind), ¬ (k = .ofStruct ∨ k = .ofArray) →
      aux_xv_K s.heap (s.heap ++ [⟨.text, 1, 0, [], true⟩] ++ [⟨k, 1, 0, [s.heap.length], true⟩]) := by
    intro k hk
    exact aux_xv_K_trans (aux_xv_K_app _ _ (by simp)) (aux_xv_K_app _ _ (fun h => absurd h hk))
  cases op with
  | text => exact nil _ _
  | intNew => exact nil _ _
  | noneNew => exact nil _ _
  | stringNew b => exact two _ (by cases b <;> simp)
  | stringRef b t => exact aux_xv_K_app _ _ (by cases b <;> simp)
  | holdNew c =>
    simp only [XvState.step]
    split
    · exact aux_xv_K_refl _
    · rename_i x hx
      refine aux_xv_K_app _ _ (fun _ d hdk => ?_)
      simp only [List.mem_singleton] at hdk
      subst hdk
      obtain ⟨y, hy, hk⟩ := hd.2
      exact ⟨y, hy, by simpa using hk⟩
  | structNew cap =>
    simp only [XvState.step]
    split
    · exact aux_xv_K_refl _
    · exact nil _ _
  | arrayNew cap => exact nil _ _
  | add c v =>
    simp only [XvState.step]
    split
    · exact aux_xv_K_refl _
    · rename_i x hx
      have hk := aux_xv_is (aux_xv_obj hx) hd.2.1
      split
      · exact aux_xv_K_set (aux_xv_obj hx) _ rfl (.inl (by simpa using hk))
      · exact aux_xv_K_refl _
  | ref c =>
    simp only [XvState.step]
    split
    · exact aux_xv_K_refl _
    · rename_i x hx
      exact aux_xv_K_set (aux_xv_obj hx) { x with refs := x.refs + 1 } rfl (.inr (fun _ hc => hc))
  | copy v =>
    simp only [XvState.step]
    split
    · exact aux_xv_K_refl _
    · rename_i x hx
      split
      · rename_i h1
        exact two _ (by rcases h1 with h1 | h1 <;> simp [h1])
      · split
        · rename_i h2
          split
          · rename_i c hkc
            split
            · exact aux_xv_K_refl _
            · rename_i y hy
              have hyk := aux_xv_is (aux_xv_obj hy) (T _ _ (aux_xv_obj hx) h2 c (by simp [hkc]))
              have hb := aux_xv_K_set (aux_xv_obj hy) { y with refs := y.refs + 1 } rfl (.inr (fun _ hc => hc))
              refine aux_xv_K_trans hb (aux_xv_K_app _ _ (fun _ d hdk => ?_))
              simp only [List.mem_singleton] at hdk
              subst hdk
              exact ⟨_, by rw [List.getElem?_set, if_pos rfl, if_pos (aux_xv_lt (aux_xv_obj hy))], by simpa using hyk⟩
          · exact nil _ _
        · exact nil _ _
  | respond v => exact aux_xv_K_app _ _ (by simp)
  | free o => exact aux_xv_K_free _ _ _
  | use o =>
    simp only [XvState.step]
    split <;> exact aux_xv_K_refl _
  | memberAt o i =>
    simp only [XvState.step]
    split
    · exact aux_xv_K_refl _
    · split
      · exact aux_xv_K_refl _
      · split <;> exact aux_xv_K_refl _
  | unmarshall r => exact aux_xv_K_free _ _ _
  | unmarshallString r =>
    simp only [XvState.step]
    split
    · exact aux_xv_K_refl _
    · split
      · split
        · exact aux_xv_K_refl _
        · rename_i y hy
          split
          · exact aux_xv_K_trans (aux_xv_K_set (aux_xv_obj hy) { y with kids := [] } rfl (.inr (by simp))) (aux_xv_K_free _ _ _)
          · exact aux_xv_K_trans (aux_xv_K_set (aux_xv_obj hy) { y with kids := [] } rfl (.inr (by simp))) (aux_xv_K_free _ _ _)
      · exact aux_xv_K_free _ _ _
  | unmarshallPlain r =>
    simp only [XvState.step]
    split
    · exact aux_xv_K_refl _
    · split
      · split
        · exact aux_xv_K_refl _
        · split <;> exact aux_xv_K_free _ _ _
      · exact aux_xv_K_free _ _ _

theorem aux_xv_T_step {s : XvState} (T : aux_xv_T s) (op : XvOp) (hd : XvDocumented s op) : aux_xv_T (s.step op) := by
  have K := aux_xv_K_step T op hd
  intro o x hx hk c hc
  rcases K.2 o x hx hk c hc with ⟨y, hy, hky, hcy⟩ | ⟨y, hy, hky⟩
  · obtain ⟨z, hz, hzk⟩ := T o y hy (by rw [hky]; exact hk) c hcy
    obtain ⟨z', hz', hk'⟩ := K.1 c z hz
    exact ⟨z', hz', by rw [hk']; exact hzk⟩
  · exact ⟨y, hy, by simpa using hky⟩

theorem aux_xv_run : ∀ (ops : List XvOp) (s : XvState), aux_xv_S s → aux_xv_T s →
    XvObeys (fun s op => XvDocumented s op ∧ XvCareful s op) s ops → aux_xv_S (ops.foldl XvState.step s) := by
  intro ops
  induction ops with
  | nil => intro s S _ _; exact S
  | cons op ops ih =>
    intro s S T h
    exact ih _ (aux_xv_step S T op h.1.1 h.1.2) (aux_xv_T_step T op h.1.1) h.2

theorem aux_xv_start : aux_xv_S {} ∧ aux_xv_T {} := by
  refine ⟨⟨⟨?_, ?_, ?_⟩, rfl⟩, ?_⟩
  · intro a; simp [aux_xv_rf, aux_xv_kc]
  · intro o x hx; simp at hx
  · intro a h
    cases h with
    | part hx _ => simp at hx
    | deeper _ hx _ => simp at hx
  · intro o x hx; simp at hx

/-! ## Nothing is left -/

theorem aux_xv_pigeon : ∀ (n : Nat) (l : List Nat), l.Nodup → (∀ a ∈ l, a < n) → l.length ≤ n := by
  intro n
  induction n with
  | zero =>
    intro l _ h
    cases l with
    | nil => exact Nat.le_refl _
    | cons a l => exact absurd (h a (List.mem_cons_self ..)) (Nat.not_lt_zero _)
  | succ n ih =>
    intro l hn h
    by_cases hm : n ∈ l
    · have h1 := ih (l.erase n) (hn.erase n) (by
        intro a ha
        have h2 := (List.Nodup.mem_erase_iff hn).1 ha
        have := h a h2.2
        have := h2.1
        omega)
      rw [List.length_erase_of_mem hm] at h1
      omega
    · have := ih l hn (by
        intro a ha
        have h1 := h a ha
        have h2 : a ≠ n := fun he => hm (he ▸ ha)
        omega)
      omega

/-- If the application owns nothing then everything that is there is part of something else. -/
theorem aux_xv_chain {h : List XvObj} (I : aux_xv_I h (fun _ => 0)) {o : Nat} {x : XvObj} (hx : h[o]? = some x) (hl : x.live = true) :
    ∀ n, ∃ (a : Nat) (l : List Nat) (y : XvObj), l.length = n ∧ h[a]? = some y ∧ y.live = true ∧ (a :: l).Nodup ∧ (∀ b ∈ a :: l, b < h.length) ∧
      ∀ b ∈ l, XvInside h a b := by
  intro n
  induction n with
  | zero => exact ⟨o, [], x, rfl, hx, hl, by simp, by simpa using aux_xv_lt hx, by simp⟩
  | succ n ih =>
    obtain ⟨a, l, y, hn, hy, hyl, hnd, hlt, hin⟩ := ih
    have h1 := I.cnt a
    rw [aux_xv_rf_some hy] at h1
    have h2 := (I.ok _ _ hy).1.1 hyl
    obtain ⟨p, z, hz, hap⟩ := aux_xv_kc_pos a h (by omega)
    have hzl : z.live = true := by
      cases hz' : z.live with
      | true => rfl
      | false => rw [(I.ok _ _ hz).2.1 hz'] at hap; simp at hap
    have hpa : XvInside h p a := .part hz hap
    have hall : ∀ b ∈ a :: l, XvInside h p b := by
      intro b hb
      rcases List.mem_cons.1 hb with hb | hb
      · subst hb; exact hpa
      · exact aux_xv_trans hpa (hin b hb)
    refine ⟨p, a :: l, z, by simp [hn], hz, hzl, ?_, ?_, hall⟩
    · rw [List.nodup_cons]
      exact ⟨fun hp => I.acy p (hall p hp), hnd⟩
    · intro b hb
      rcases List.mem_cons.1 hb with hb | hb
      · subst hb; exact aux_xv_lt hz
      · exact hlt b hb

theorem aux_xv_released {s : XvState} (S : aux_xv_S s) (hh : s.held = []) : XvReleased s := by
  intro o x hx
  cases hl : x.live with
  | false => rfl
  | true =>
    exfalso
    have I : aux_xv_I s.heap (fun _ => 0) := aux_xv_ext S.1 (fun a => by simp [hh])
    obtain ⟨a, l, _, hn, _, _, hnd, hlt, _⟩ := aux_xv_chain I hx hl s.heap.length
    have := aux_xv_pigeon _ _ hnd hlt
    simp only [List.length_cons] at this
    omega

/-! ## The property -/

/-- An application that keeps to the documentation never makes the library use memory that is released, release it twice or use NULL; and
when the application has given away or released all that was its own, then everything is released. -/
def C109_statement : Prop :=
  ∀ ops : List XvOp, XvObeys XvDocumented {} ops → (xvRun ops).bad = false ∧ ((xvRun ops).held = [] → XvReleased (xvRun ops))

/-- What is missing: structs and arrays that are full, members not yet added, strings taken from values of other kinds, and structs and
arrays taken without a function to unmarshall them. -/
theorem C109_memory_partial (ops : List XvOp) (h : XvObeys (fun s op => XvDocumented s op ∧ XvCareful s op) {} ops) :
    (xvRun ops).bad = false := (aux_xv_run ops {} aux_xv_start.1 aux_xv_start.2 h).2

theorem C109_no_leak_partial (ops : List XvOp) (h : XvObeys (fun s op => XvDocumented s op ∧ XvCareful s op) {} ops)
    (hh : (xvRun ops).held = []) : XvReleased (xvRun ops) := aux_xv_released (aux_xv_run ops {} aux_xv_start.1 aux_xv_start.2 h) hh

/-- What the application owns, or is part of something it owns, is there. -/
theorem C109_alive_partial (ops : List XvOp) (h : XvObeys (fun s op => XvDocumented s op ∧ XvCareful s op) {} ops) (o : Nat)
    (ho : XvReach (xvRun ops) o) : ∃ x, (xvRun ops).heap[o]? = some x ∧ x.live = true := by
  obtain ⟨x, hx, hl, _⟩ := aux_xv_reach (aux_xv_run ops {} aux_xv_start.1 aux_xv_start.2 h) ho
  exact ⟨x, hx, hl⟩

/-! ## Cases -/

theorem aux_xv_closed {h : List XvObj} {v c : Nat} (P : List Nat)
    (hp : (v :: P).all (fun p => match h[p]? with | some x => x.kids.all (fun k => P.contains k) | none => true) = true)
    (hc : c ∉ P) : ¬ XvInside h v c := by
  have edge : ∀ {p q : Nat} {x : XvObj}, p ∈ v :: P → h[p]? = some x → q ∈ x.kids → q ∈ P := by
    intro p q x hpp hx hq
    have := List.all_eq_true.1 hp p hpp
    rw [hx] at this
    simpa using List.all_eq_true.1 this q hq
  have all : ∀ {b : Nat}, XvInside h v b → b ∈ P := by
    intro b hb
    induction hb with
    | part hx hq => exact edge (List.mem_cons_self ..) hx hq
    | deeper _ hx hq ih => exact edge (List.mem_cons_of_mem _ ih) hx hq
  intro h; exact hc (all h)

theorem aux_xv_in {s : XvState} {o : Nat} {ks : List XvKind}
    (h : (match s.heap[o]? with | some x => decide (x.kind ∈ ks) | none => false) = true) : XvIs s o ks := by
  cases hx : s.heap[o]? with
  | none => rw [hx] at h; simp at h
  | some x => rw [hx] at h; exact ⟨x, hx, by simpa using h⟩

theorem aux_xv_fr {s : XvState} {o : Nat} (h : o ∈ s.held) : XvDocumented s (.free o) := h

/-- A struct with a string, put into a value, copied, sent as a response and unmarshalled. -/
def aux_xv_case : List XvOp :=
  [.structNew 1, .stringNew false, .add 0 2, .holdNew 0, .copy 3, .respond 3, .unmarshall 5, .memberAt 0 0, .free 4]

theorem aux_xv_case_obeys : XvObeys (fun s op => XvDocumented s op ∧ XvCareful s op) {} aux_xv_case := by
  refine ⟨⟨trivial, trivial⟩, ⟨trivial, trivial⟩, ⟨⟨.inl (by decide +kernel), aux_xv_in (by decide +kernel), by decide +kernel, aux_xv_in (by decide +kernel),
    aux_xv_closed [1] (by decide +kernel) (by decide)⟩, ?_⟩, ⟨⟨by decide +kernel, aux_xv_in (by decide +kernel)⟩, trivial⟩,
    ⟨⟨.inl (by decide +kernel), aux_xv_in (by decide +kernel)⟩, trivial⟩, ⟨⟨by decide +kernel, aux_xv_in (by decide +kernel)⟩, trivial⟩,
    ⟨⟨by decide +kernel, aux_xv_in (by decide +kernel)⟩, trivial⟩, ⟨⟨.inr ⟨4, by decide +kernel, .part (x := ⟨.ofStruct, 1, 0, [0], true⟩) (by decide +kernel) (by decide)⟩,
    aux_xv_in (by decide +kernel)⟩, ?_⟩, ⟨aux_xv_fr (by decide +kernel), trivial⟩, trivial⟩
  · intro x hx
    have h : (some (⟨.struct, 1, 1, [], true⟩ : XvObj)) = some x := by rw [← hx]; decide +kernel
    injection h with h; subst h; decide
  · intro x hx
    have h : (some (⟨.struct, 1, 1, [2], true⟩ : XvObj)) = some x := by rw [← hx]; decide +kernel
    injection h with h; subst h; exact .inl (by decide)

example : (xvRun aux_xv_case).bad = false ∧ (xvRun aux_xv_case).held = [] ∧ (xvRun aux_xv_case).heap.length = 6 := by decide +kernel

/-- The struct is still there after the response is unmarshalled: the copy shares it. -/
example : (xvRun (aux_xv_case.take 7)).held = [4] ∧ ((xvRun (aux_xv_case.take 7)).heap.map (fun x => x.live)) = [true, true, true, false, true, false] := by
  decide +kernel

/-- A struct taken from a response without a function to unmarshall it, as documented, is released already when it is returned. -/
theorem C109_struct_released :
    ∃ ops o, XvObeys XvDocumented {} ops ∧ (xvRun ops).bad = false ∧ o ∈ (xvRun ops).held ∧ (∃ x, (xvRun ops).heap[o]? = some x ∧ x.live = false) ∧
      ((xvRun ops).step (.free o)).bad = true := by
  refine ⟨[.structNew 1, .holdNew 0, .respond 1, .unmarshallPlain 2], 0, ⟨trivial, ⟨by decide +kernel, aux_xv_in (by decide +kernel)⟩,
    ⟨by decide +kernel, aux_xv_in (by decide +kernel)⟩, ⟨by decide +kernel, aux_xv_in (by decide +kernel)⟩, trivial⟩, by decide +kernel, by decide +kernel,
    ⟨⟨.struct, 0, 1, [], false⟩, by decide +kernel, rfl⟩, by decide +kernel⟩

/-- A string taken from a response that holds base64 content: no string is returned, and the content is never released. -/
theorem C109_string_leak :
    ∃ ops, XvObeys XvDocumented {} ops ∧ (xvRun ops).held = [] ∧ ∃ (o : Nat) (x : XvObj), (xvRun ops).heap[o]? = some x ∧ x.live = true := by
  refine ⟨[.stringNew true, .respond 1, .unmarshallString 2], ⟨trivial, ⟨by decide +kernel, aux_xv_in (by decide +kernel)⟩,
    ⟨by decide +kernel, aux_xv_in (by decide +kernel)⟩, trivial⟩, by decide +kernel, 0, ⟨.text, 1, 0, [], true⟩, by decide +kernel, rfl⟩

/-- A value added to a struct that is full is never released, and the application is not told. -/
theorem C109_full_leak :
    ∃ ops, XvObeys XvDocumented {} ops ∧ (xvRun ops).held = [] ∧ ∃ (o : Nat) (x : XvObj), (xvRun ops).heap[o]? = some x ∧ x.live = true := by
  refine ⟨[.structNew 1, .intNew, .intNew, .add 0 1, .add 0 2, .free 0], ⟨trivial, trivial, trivial,
    ⟨.inl (by decide +kernel), aux_xv_in (by decide +kernel), by decide +kernel, aux_xv_in (by decide +kernel), aux_xv_closed [] (by decide +kernel) (by decide)⟩,
    ⟨.inl (by decide +kernel), aux_xv_in (by decide +kernel), by decide +kernel, aux_xv_in (by decide +kernel), aux_xv_closed [] (by decide +kernel) (by decide)⟩,
    aux_xv_fr (by decide +kernel), trivial⟩, by decide +kernel, 2, ⟨.int, 1, 0, [], true⟩, by decide +kernel, rfl⟩

/-- A struct with room for two members, with one added: looking at the second uses NULL, although the position is within the count. -/
theorem C109_member_null :
    ∃ ops c i, XvObeys XvDocumented {} ops ∧ (xvRun ops).bad = false ∧ XvDocumented (xvRun ops) (.memberAt c i) ∧
      ((xvRun ops).step (.memberAt c i)).bad = true := by
  refine ⟨[.structNew 2, .intNew, .add 0 1], 0, 1, ⟨trivial, trivial,
    ⟨.inl (by decide +kernel), aux_xv_in (by decide +kernel), by decide +kernel, aux_xv_in (by decide +kernel), aux_xv_closed [] (by decide +kernel) (by decide)⟩,
    trivial⟩, by decide +kernel, ⟨.inl (by decide +kernel), aux_xv_in (by decide +kernel)⟩, by decide +kernel⟩

theorem C109_statement_false : ¬ C109_statement := by
  intro h
  obtain ⟨ops, ho, hh, o, x, hx, hl⟩ := C109_full_leak
  have := (h ops ho).2 hh o x hx
  rw [hl] at this; cases this

end Verif.Props
