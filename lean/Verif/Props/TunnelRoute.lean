import Verif.Spec.TunnelRoute
/-!
# C101: tunnels go through the hosts that were configured
-/
namespace Verif.Props
open Verif.Model Verif.Spec

theorem aux_tr_refused (i j : TunItem) : i.refusedBy.contains j = true ↔ tunClash i j := by
  cases i <;> cases j <;> simp [TunItem.refusedBy, tunClash]

theorem aux_tr_sym {i j : TunItem} (h : tunClash i j) : tunClash j i := by
  cases i <;> cases j <;> simp [tunClash] at h ⊢

theorem aux_tr_hop (items acc : List (TunItem × String)) (ha : acc.Pairwise (fun a b => ¬ tunClash a.1 b.1)) :
    ((acc ++ items).Pairwise (fun a b => ¬ tunClash a.1 b.1) → tunHopFrom acc items = some (acc ++ items)) ∧
    (¬ (acc ++ items).Pairwise (fun a b => ¬ tunClash a.1 b.1) → tunHopFrom acc items = none) := by
  induction items generalizing acc with
  | nil => simp [tunHopFrom, ha]
  | cons x rest ih =>
    obtain ⟨i, v⟩ := x
    simp only [tunHopFrom]
    by_cases e : acc.any (fun a => i.refusedBy.contains a.1) = true
    · rw [if_pos e]
      simp only [List.any_eq_true] at e
      obtain ⟨a, ha1, ha2⟩ := e
      have c := aux_tr_sym ((aux_tr_refused _ _).1 ha2)
      refine ⟨fun h => ?_, fun _ => rfl⟩
      rw [List.pairwise_append] at h
      exact absurd c (h.2.2 a ha1 (i, v) (by simp))
    · rw [if_neg e]
      have ha' : (acc ++ [(i, v)]).Pairwise (fun a b => ¬ tunClash a.1 b.1) := by
        rw [List.pairwise_append]
        refine ⟨ha, by simp, fun a h b hb => ?_⟩
        simp only [List.mem_singleton] at hb
        subst hb
        intro c
        apply e
        simp only [List.any_eq_true]
        exact ⟨a, h, (aux_tr_refused _ _).2 (aux_tr_sym c)⟩
      have := ih _ ha'
      simpa using this

/-- A hop becomes the first one if no two of its items clash, and otherwise the settings are left as they are. -/
theorem C101_hop (root : TunNode) (items : List (TunItem × String)) :
    (items.Pairwise (fun a b => ¬ tunClash a.1 b.1) → tunAdd root items = .mk items [root]) ∧
    (¬ items.Pairwise (fun a b => ¬ tunClash a.1 b.1) → tunAdd root items = root) := by
  have := aux_tr_hop items [] (by simp)
  simp only [List.nil_append] at this
  refine ⟨fun h => ?_, fun h => ?_⟩
  · simp [tunAdd, this.1 h]
  · simp [tunAdd, this.2 h]

example : tunAdd (.mk [] []) [(.port, "604"), (.ip4, "10.0.0.1")] = .mk [(.port, "604"), (.ip4, "10.0.0.1")] [.mk [] []] ∧
    tunAdd (.mk [] []) [(.fqdn, "a"), (.ip4, "10.0.0.1")] = .mk [] [] := by
  constructor <;> rfl

theorem aux_tr_doc {items : List (TunItem × String)} (h : tunDocumented items) : items.Pairwise (fun a b => ¬ tunClash a.1 b.1) := by
  obtain ⟨h, p, s, c⟩ := h
  have sym : ∀ {x y : TunItem × String}, ¬ tunClash x.1 y.1 → ¬ tunClash y.1 x.1 := fun h c => h (aux_tr_sym c)
  rcases c with c | c | c | c | c | c | c
  · rw [c.pairwise_iff sym]; simp [tunClash]
  · rw [c.pairwise_iff sym]; simp [tunClash]
  · rw [c.pairwise_iff sym]; simp [tunClash]
  · rw [c.pairwise_iff sym]; simp [tunClash]
  · rw [c.pairwise_iff sym]; simp [tunClash]
  · subst c; simp
  · subst c; simp

/-- The documented combinations are accepted, in any order. What is missing: others are accepted as well. -/
theorem C101_documented_partial (root : TunNode) (items : List (TunItem × String)) (h : tunDocumented items) :
    tunAdd root items = .mk items [root] := (C101_hop root items).1 (aux_tr_doc h)

example : tunDocumented [(.srv, "_beep._tcp"), (.port, "604"), (.fqdn, "a")] :=
  ⟨"a", "604", "_beep._tcp", .inr (.inr (.inl (by decide)))⟩

theorem aux_tr_attr {items : List (TunItem × String)} (hp : items.Pairwise (fun a b => ¬ tunClash a.1 b.1)) {i : TunItem} {v : String}
    (h : (i, v) ∈ items) : tunAttr i items = some v := by
  induction items with
  | nil => simp at h
  | cons x rest ih =>
    rw [List.pairwise_cons] at hp
    simp only [tunAttr, List.find?_cons]
    by_cases e : x.1 = i
    · simp only [e, beq_self_eq_true, Option.map_some]
      rcases List.mem_cons.1 h with h | h
      · rw [← h]
      · exact absurd (.inl e) (hp.1 _ h)
    · have : (x.1 == i) = false := by simpa using e
      rw [this]
      rcases List.mem_cons.1 h with h | h
      · rw [← h] at e; simp at e
      · exact ih hp.2 h

theorem aux_tr_noattr {items : List (TunItem × String)} (hp : items.Pairwise (fun a b => ¬ tunClash a.1 b.1)) {i j : TunItem} {v : String}
    (h : (i, v) ∈ items) (c : tunClash i j) (hij : i ≠ j) : tunAttr j items = none := by
  simp only [tunAttr, Option.map_eq_none_iff, List.find?_eq_none]
  intro y hy e
  simp at e
  have key : ∀ (l : List (TunItem × String)), l.Pairwise (fun a b => ¬ tunClash a.1 b.1) → (i, v) ∈ l → y ∈ l → False := by
    intro l
    induction l with
    | nil => intro _ h; simp at h
    | cons x rest ih =>
      intro hp h1 h2
      rw [List.pairwise_cons] at hp
      rcases List.mem_cons.1 h1 with h1 | h1
      · rcases List.mem_cons.1 h2 with h2 | h2
        · rw [← h1] at h2; rw [h2] at e; exact hij e
        · exact hp.1 _ h2 (by rw [← h1, e]; exact c)
      · rcases List.mem_cons.1 h2 with h2 | h2
        · exact hp.1 _ h1 (by rw [← h2, e]; exact aux_tr_sym c)
        · exact ih hp.2 h1 h2
  exact key items hp h hy

theorem aux_tr_target {items : List (TunItem × String)} {h p : String} (g : tunGoes items h p) : tunTarget items = some (h, p) := by
  obtain ⟨d, g1, g2⟩ := g
  have hp := aux_tr_doc d
  have e1 := aux_tr_attr hp g1
  rcases g2 with g2 | g2
  · simp [tunTarget, e1, aux_tr_attr hp g2]
  · simp [tunTarget, e1, aux_tr_attr hp g2, aux_tr_noattr hp g2 (j := .fqdn) (by simp [tunClash]) (by simp)]

theorem aux_tr_settings (x : List (TunItem × String)) (hs : List (List (TunItem × String))) (d : tunDocumented x) :
    tunSettings (x :: hs).reverse = .mk x [tunSettings hs.reverse] := by
  simp only [tunSettings, List.reverse_cons, List.foldl_append, List.foldl_cons, List.foldl_nil]
  exact C101_documented_partial _ x d

theorem aux_tr_layers (hs : List (List (TunItem × String))) (d : ∀ x ∈ hs, tunDocumented x) :
    tunLayers (tunSettings hs.reverse) = hs ++ [[]] := by
  induction hs with
  | nil => rfl
  | cons x hs ih =>
    rw [aux_tr_settings x hs (d x (by simp))]
    simp only [tunLayers, ih (fun y hy => d y (by simp [hy])), List.cons_append]

theorem aux_tr_open (w : TunWorld) (attrs : List (TunItem × String)) (next : TunNode) (h p : String) (g : tunTarget attrs = some (h, p)) :
    tunOpen w (.mk attrs [next]) = match w h p with
      | none => ([], false)
      | some host => if host.profile then (.reached h p :: .asked h p next :: (tunServe w h p host next).1, (tunServe w h p host next).2)
        else ([.reached h p], false) := by
  rw [tunOpen]
  simp only [g]
  cases w h p <;> rfl

theorem aux_tr_serve (w : TunWorld) (h p : String) (host : TunHost) (attrs : List (TunItem × String)) (next : TunNode) :
    tunServe w h p host (.mk attrs [next]) = tunOpen w (.mk attrs [next]) := by
  rw [tunServe]

theorem aux_tr_serve_end (w : TunWorld) (h p : String) (host : TunHost) :
    tunServe w h p host (tunSettings [].reverse) = if host.accept then ([.session h p], true) else ([], false) := by
  show tunServe w h p host (.mk [] []) = _
  rw [tunServe]

/-- What one step of the way does. -/
theorem aux_tr_step (w : TunWorld) (x : List (TunItem × String) × (String × String)) (hs : List (List (TunItem × String) × (String × String)))
    (g : ∀ y ∈ x :: hs, tunGoes y.1 y.2.1 y.2.2) :
    tunOpen w (tunSettings (((x :: hs).map (·.1)).reverse)) = match w x.2.1 x.2.2 with
      | none => ([], false)
      | some host => if host.profile then
          let r := if hs = [] then (if host.accept then ([.session x.2.1 x.2.2], true) else ([], false))
            else tunOpen w (tunSettings ((hs.map (·.1)).reverse))
          (.reached x.2.1 x.2.2 :: .asked x.2.1 x.2.2 (tunSettings ((hs.map (·.1)).reverse)) :: r.1, r.2)
        else ([.reached x.2.1 x.2.2], false) := by
  have gx := g x (by simp)
  rw [List.map_cons, aux_tr_settings _ _ gx.1, aux_tr_open _ _ _ _ _ (aux_tr_target gx)]
  cases e : w x.2.1 x.2.2 with
  | none => rfl
  | some host =>
    cases hs with
    | nil => simp only [List.map_nil, aux_tr_serve_end, if_true]
    | cons y ys =>
      have gy := g y (by simp)
      simp only [List.map_cons, aux_tr_settings _ _ gy.1, aux_tr_serve, reduceCtorEq, if_false]

/-- A connection comes back if and only if there is a hop, all the hosts named can be reached and have the profile, and the last
one accepts. What is missing: hops that are documented but give something else than a name or IPv4 address and a port. -/
theorem C101_connected_partial (w : TunWorld) (hs : List (List (TunItem × String) × (String × String)))
    (g : ∀ x ∈ hs, tunGoes x.1 x.2.1 x.2.2) :
    (tunNew w (tunSettings ((hs.map (·.1)).reverse)) false).2.1 = true ↔
      (∀ x ∈ hs, ∃ host, w x.2.1 x.2.2 = some host ∧ host.profile = true) ∧
      ∃ x host, hs.getLast? = some x ∧ w x.2.1 x.2.2 = some host ∧ host.accept = true := by
  show (tunOpen w _).2 = true ↔ _
  induction hs with
  | nil => simp [tunSettings, tunOpen]
  | cons x hs ih =>
    have ih := ih (fun y hy => g y (by simp [hy]))
    rw [aux_tr_step w x hs g]
    cases e : w x.2.1 x.2.2 with
    | none => simp [e]
    | some host =>
      cases hp : host.profile with
      | false => simp [e, hp]
      | true =>
        cases hs with
        | nil => cases ha : host.accept <;> simp [e, hp, ha]
        | cons y ys =>
          simp only [hp, if_true, reduceCtorEq, if_false, ih, List.getLast?_cons_cons, List.forall_mem_cons (a := x)]
          simp [e, hp]

/-- The hosts that get a connection are the ones named, in the order in which they are to be visited: a part of them from the
first on, and all of them if the connection succeeds. Each is told exactly the hops behind it. Only the last takes the session. -/
theorem C101_route_partial (w : TunWorld) (hs : List (List (TunItem × String) × (String × String)))
    (g : ∀ x ∈ hs, tunGoes x.1 x.2.1 x.2.2) :
    tunHosts (tunNew w (tunSettings ((hs.map (·.1)).reverse)) false).1 <+: hs.map (·.2) ∧
    tunTold (tunNew w (tunSettings ((hs.map (·.1)).reverse)) false).1 <+: tunShould hs ∧
    ((tunNew w (tunSettings ((hs.map (·.1)).reverse)) false).2.1 = true →
      tunHosts (tunNew w (tunSettings ((hs.map (·.1)).reverse)) false).1 = hs.map (·.2) ∧
      tunTold (tunNew w (tunSettings ((hs.map (·.1)).reverse)) false).1 = tunShould hs ∧
      tunEnds (tunNew w (tunSettings ((hs.map (·.1)).reverse)) false).1 = (hs.map (·.2)).getLast?.toList) ∧
    ((tunNew w (tunSettings ((hs.map (·.1)).reverse)) false).2.1 = false →
      tunEnds (tunNew w (tunSettings ((hs.map (·.1)).reverse)) false).1 = []) := by
  show tunHosts (tunOpen w _).1 <+: _ ∧ tunTold (tunOpen w _).1 <+: _ ∧ ((tunOpen w _).2 = true → tunHosts (tunOpen w _).1 = _ ∧
    tunTold (tunOpen w _).1 = _ ∧ tunEnds (tunOpen w _).1 = _) ∧ ((tunOpen w _).2 = false → tunEnds (tunOpen w _).1 = [])
  induction hs with
  | nil => simp [tunSettings, tunOpen, tunHosts, tunTold, tunEnds]
  | cons x hs ih =>
    have ih := ih (fun y hy => g y (by simp [hy]))
    have hl : tunLayers (tunSettings ((hs.map (·.1)).reverse)) = hs.map (·.1) ++ [[]] :=
      aux_tr_layers _ (fun y hy => by
        obtain ⟨z, hz, rfl⟩ := List.mem_map.1 hy
        exact (g z (by simp [hz])).1)
    rw [aux_tr_step w x hs g]
    cases e : w x.2.1 x.2.2 with
    | none => simp [tunHosts, tunTold, tunEnds]
    | some host =>
      cases hp : host.profile with
      | false => simp [hp, tunHosts, tunTold, tunEnds]
      | true =>
        have H : ∀ l, tunHosts (.reached x.2.1 x.2.2 :: .asked x.2.1 x.2.2 (tunSettings ((hs.map (·.1)).reverse)) :: l) = x.2 :: tunHosts l :=
          fun _ => rfl
        have T : ∀ l, tunTold (.reached x.2.1 x.2.2 :: .asked x.2.1 x.2.2 (tunSettings ((hs.map (·.1)).reverse)) :: l) =
            (x.2, hs.map (·.1) ++ [[]]) :: tunTold l := by
          intro l; rw [← hl]; rfl
        have E : ∀ l, tunEnds (.reached x.2.1 x.2.2 :: .asked x.2.1 x.2.2 (tunSettings ((hs.map (·.1)).reverse)) :: l) = tunEnds l :=
          fun _ => rfl
        simp only [hp, if_true, H, T, E, tunShould, List.map_cons, List.prefix_cons_inj, List.cons.injEq, true_and]
        cases hs with
        | nil => cases ha : host.accept <;> simp [tunHosts, tunTold, tunEnds, tunShould]
        | cons y ys => simpa using ih

/-- Two proxies and an end. -/
def aux_tr_w : TunWorld := fun h p =>
  if (h, p) = ("p1", "604") then some ⟨true, false⟩ else if (h, p) = ("10.0.0.2", "605") then some ⟨true, true⟩
  else if (h, p) = ("end", "606") then some ⟨true, true⟩ else none

def aux_tr_hops : List (List (TunItem × String) × (String × String)) :=
  [([(.fqdn, "p1"), (.port, "604")], ("p1", "604")), ([(.port, "605"), (.ip4, "10.0.0.2")], ("10.0.0.2", "605")),
    ([(.fqdn, "end"), (.port, "606")], ("end", "606"))]

example : (∀ x ∈ aux_tr_hops, tunGoes x.1 x.2.1 x.2.2) ∧
    (tunNew aux_tr_w (tunSettings ((aux_tr_hops.map (·.1)).reverse)) false).2.1 = true := by
  have g : ∀ x ∈ aux_tr_hops, tunGoes x.1 x.2.1 x.2.2 := by
    intro x hx
    simp only [aux_tr_hops, List.mem_cons, List.not_mem_nil, or_false] at hx
    rcases hx with rfl | rfl | rfl
    · exact ⟨⟨"p1", "604", "", .inl (by decide)⟩, by decide, by decide⟩
    · exact ⟨⟨"10.0.0.2", "605", "", .inr (.inr (.inr (.inl (by decide))))⟩, by decide, by decide⟩
    · exact ⟨⟨"end", "606", "", .inl (by decide)⟩, by decide, by decide⟩
  refine ⟨g, (C101_connected_partial _ _ g).2 ⟨by simp [aux_tr_hops, aux_tr_w], ?_⟩⟩
  exact ⟨_, ⟨true, true⟩, rfl, by decide, rfl⟩

theorem aux_tr_any (w : TunWorld) : ∀ (k : Nat) (n : TunNode), (tunLayers n).length ≤ k →
    (tunHosts (tunOpen w n).1).length < (tunLayers n).length ∧
    ((tunOpen w n).2 = true → (tunEnds (tunOpen w n).1).length = 1) ∧ ((tunOpen w n).2 = false → tunEnds (tunOpen w n).1 = []) := by
  intro k
  induction k with
  | zero => intro n h; cases n with | mk a ks => cases ks <;> simp [tunLayers] at h
  | succ k ih =>
    intro n h
    cases n with
    | mk a ks =>
      cases ks with
      | nil => simp [tunOpen, tunLayers, tunHosts, tunEnds]
      | cons n ks =>
        simp only [tunLayers, List.length_cons] at h ⊢
        have ih := ih n (by omega)
        rw [tunOpen]
        cases tunTarget a with
        | none => simp [tunHosts, tunEnds]
        | some hp =>
          obtain ⟨h', p⟩ := hp
          simp only
          cases w h' p with
          | none => simp [tunHosts, tunEnds]
          | some host =>
            simp only
            cases hpr : host.profile with
            | false =>
              cases n with
              | mk b ks => cases ks <;> simp [tunHosts, tunEnds, tunLayers]
            | true =>
              have H : ∀ l, tunHosts (.reached h' p :: .asked h' p n :: l) = (h', p) :: tunHosts l := fun _ => rfl
              have E : ∀ l, tunEnds (.reached h' p :: .asked h' p n :: l) = tunEnds l := fun _ => rfl
              simp only [if_true, H, E, List.length_cons]
              cases n with
              | mk b ms =>
                cases ms with
                | nil => rw [tunServe]; cases host.accept <;> simp [tunLayers, tunHosts, tunEnds]
                | cons m ms => rw [tunServe]; exact ⟨by omega, ih.2⟩

/-- Whatever the settings, fewer hosts get a connection than there are elements one in the other. -/
theorem C101_bounded (w : TunWorld) (n : TunNode) (handler : Bool) : (tunHosts (tunNew w n handler).1).length < (tunLayers n).length :=
  (aux_tr_any w _ n (Nat.le_refl _)).1

/-- Whatever the request, the answer is `<ok />` if and only if exactly one host has taken the session, and with any other answer no
host has. -/
theorem C101_ok (w : TunWorld) (h p : String) (host : TunHost) (c : TunContent) :
    ((tunRequest w h p host c).2 = .ok ↔ (tunEnds (tunRequest w h p host c).1).length = 1) ∧
    ((tunRequest w h p host c).2 ≠ .ok ↔ tunEnds (tunRequest w h p host c).1 = []) := by
  cases c with
  | null => simp [tunRequest, tunEnds]
  | malformed => simp [tunRequest, tunEnds]
  | node n =>
    cases n with
    | mk a ks =>
      cases ks with
      | nil => rw [tunRequest]; cases ha : host.accept <;> simp [tunServe, ha, tunEnds]
      | cons m ms =>
        have := aux_tr_any w _ (.mk a (m :: ms)) (Nat.le_refl _)
        simp only [tunRequest, tunServe]
        cases e : (tunOpen w (.mk a (m :: ms))).2 with
        | true => have := this.2.1 e; simp [this]; intro h; simp [h] at this
        | false => have := this.2.2 e; simp [this]

/-- A host takes the session for itself only if its accept handler agrees. -/
theorem C101_consent (w : TunWorld) (n : TunNode) (handler : Bool) (h p : String) (e : (h, p) ∈ tunEnds (tunNew w n handler).1) :
    ∃ host, w h p = some host ∧ host.profile = true ∧ host.accept = true := by
  have key : ∀ (k : Nat) (n : TunNode), (tunLayers n).length ≤ k → (h, p) ∈ tunEnds (tunOpen w n).1 →
      ∃ host, w h p = some host ∧ host.profile = true ∧ host.accept = true := by
    intro k
    induction k with
    | zero => intro n h; cases n with | mk a ks => cases ks <;> simp [tunLayers] at h
    | succ k ih =>
      intro n hk
      cases n with
      | mk a ks =>
        cases ks with
        | nil => simp [tunOpen, tunEnds]
        | cons n ks =>
          simp only [tunLayers, List.length_cons] at hk
          have ih := ih n (by omega)
          rw [tunOpen]
          cases tunTarget a with
          | none => simp [tunEnds]
          | some hp =>
            obtain ⟨h', p'⟩ := hp
            simp only
            cases hw : w h' p' with
            | none => simp [tunEnds]
            | some host =>
              simp only
              cases hpr : host.profile with
              | false => simp [tunEnds]
              | true =>
                have E : ∀ l, tunEnds (.reached h' p' :: .asked h' p' n :: l) = tunEnds l := fun _ => rfl
                simp only [if_true, E]
                cases n with
                | mk b ms =>
                  cases ms with
                  | nil =>
                    rw [tunServe]
                    cases ha : host.accept with
                    | false => simp [tunEnds]
                    | true => simp only [if_true, tunEnds]; simp; rintro rfl rfl; exact ⟨host, hw, hpr, ha⟩
                  | cons m ms => rw [tunServe]; exact ih
  exact key _ n (Nat.le_refl _) e

example : ("end", "606") ∈ tunEnds (tunNew aux_tr_w (tunSettings ((aux_tr_hops.map (·.1)).reverse)) false).1 := by
  simp [aux_tr_hops, tunNew, tunSettings, tunAdd, tunHopFrom, TunItem.refusedBy, tunOpen, tunServe, tunTarget, tunAttr, aux_tr_w, tunEnds]

/-- The answers: 500 to what is no XML, 537 if the accept handler refuses, 450 if the next host cannot be had. -/
theorem C101_replies (w : TunWorld) (h p : String) (host : TunHost) (c : TunContent) :
    ((tunRequest w h p host c).2 = .error 500 ↔ c = .malformed) ∧
    ((tunRequest w h p host c).2 = .error 537 ↔ host.accept = false ∧ ∃ a, c = .node (.mk a [])) ∧
    ((tunRequest w h p host c).2 = .error 450 ↔ ∃ a n ns, c = .node (.mk a (n :: ns)) ∧ (tunNew w (.mk a (n :: ns)) false).2.1 = false) ∧
    ((tunRequest w h p host c).2 = .crash ↔ c = .null) := by
  cases c with
  | null => simp [tunRequest]
  | malformed => simp [tunRequest]
  | node n =>
    cases n with
    | mk a ks =>
      cases ks with
      | nil => rw [tunRequest]; cases ha : host.accept <;> simp
      | cons m ms =>
        simp only [tunRequest, tunServe, tunNew]
        cases e : (tunOpen w (.mk a (m :: ms))).2 with
        | true => simp [e]
        | false => simp; exact ⟨_, _, _, ⟨rfl, rfl, rfl⟩, e⟩

/-- What a user relies on: settings made of documented hops give a connection when every host is there and accepts; a hop that is
not understood prevents the connection; every request is answered; a host takes a session for itself only if the request names
nothing else; the handler is called. -/
def C101_statement : Prop :=
  (∀ (w : TunWorld) (hops : List (List (TunItem × String))), hops ≠ [] → (∀ x ∈ hops, tunDocumented x) → (∀ h p, w h p = some ⟨true, true⟩) →
    (tunNew w (tunSettings hops) false).2.1 = true) ∧
  (∀ (w : TunWorld) (hops : List (List (TunItem × String))), (tunNew w (tunSettings hops) false).2.1 = true → ∀ x ∈ hops, tunDocumented x) ∧
  (∀ w h p host c, (tunRequest w h p host c).2 ≠ .crash) ∧
  (∀ w h p host a, (tunRequest w h p host (.node (.mk a []))).2 = .ok → a = []) ∧
  (∀ w n, (tunNew w n true).2.1 = true → (tunNew w n true).2.2 = 1)

/-- A hop with an IPv6 address is documented and accepted, and then nobody is connected to. -/
theorem C101_not_implemented (w : TunWorld) (h p : String) : tunDocumented [(.ip6, h), (.port, p)] ∧
    tunNew w (tunSettings [[(.ip6, h), (.port, p)]]) false = ([], false, 0) := by
  refine ⟨⟨h, p, "", .inr (.inr (.inr (.inr (.inl (.refl _)))))⟩, ?_⟩
  simp [tunNew, tunSettings, tunAdd, tunHopFrom, TunItem.refusedBy, tunOpen, tunTarget, tunAttr]

/-- A proxy whose hop has one item too many is left out: the end is connected to directly. -/
theorem C101_bypassed (w : TunWorld) (h p q pp a : String) (hw : w h p = some ⟨true, true⟩) :
    (tunNew w (tunSettings [[(.fqdn, h), (.port, p)], [(.fqdn, q), (.port, pp), (.ip4, a)]]) false).2.1 = true ∧
    tunHosts (tunNew w (tunSettings [[(.fqdn, h), (.port, p)], [(.fqdn, q), (.port, pp), (.ip4, a)]]) false).1 = [(h, p)] := by
  simp [tunNew, tunSettings, tunAdd, tunHopFrom, TunItem.refusedBy, tunOpen, tunServe, tunTarget, tunAttr, hw, tunHosts]

/-- A request that names an endpoint, and nothing in it, is taken as a session with the proxy. -/
theorem C101_endpoint_taken (w : TunWorld) (h p : String) (host : TunHost) (ha : host.accept = true) (i : TunItem) (v : String) :
    (tunRequest w h p host (.node (.mk [(i, v)] []))).2 = .ok ∧ tunEnds (tunRequest w h p host (.node (.mk [(i, v)] []))).1 = [(h, p)] := by
  simp [tunRequest, tunServe, ha, tunEnds]

/-- A request without content ends the process. -/
theorem C101_no_content (w : TunWorld) (h p : String) (host : TunHost) : (tunRequest w h p host .null).2 = .crash := rfl

/-- The handler is never called. -/
theorem C101_handler (w : TunWorld) (n : TunNode) : (tunNew w n true).2.2 = 0 := rfl

/-- Hops that are not documented are accepted: an address of each kind, or a port alone. -/
theorem C101_undocumented (root : TunNode) (a b p : String) :
    tunAdd root [(.ip4, a), (.ip6, b)] = .mk [(.ip4, a), (.ip6, b)] [root] ∧ ¬ tunDocumented [(.ip4, a), (.ip6, b)] ∧
    tunAdd root [(.port, p)] = .mk [(.port, p)] [root] ∧ ¬ tunDocumented [(.port, p)] := by
  refine ⟨by simp [tunAdd, tunHopFrom, TunItem.refusedBy], ?_, by simp [tunAdd, tunHopFrom], ?_⟩
  · rintro ⟨h, q, s, c | c | c | c | c | c | c⟩
    all_goals first | (simp at c; done) | skip
    · have := c.mem_iff (a := (.ip6, b)); simp at this
    · have := c.mem_iff (a := (.ip6, b)); simp at this
    · have := c.length_eq; simp at this
    · have := c.mem_iff (a := (.ip6, b)); simp at this
    · have := c.mem_iff (a := (.ip4, a)); simp at this
  · rintro ⟨h, q, s, c | c | c | c | c | c | c⟩
    all_goals first | (have := c.length_eq; simp at this; done) | simp at c

theorem C101_statement_false : ¬ C101_statement := by
  intro ⟨_, _, h, _⟩
  exact h (fun _ _ => none) "" "" ⟨true, true⟩ .null rfl

end Verif.Props
