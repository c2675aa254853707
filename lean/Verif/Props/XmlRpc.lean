import Verif.Proof.XmlRpc
/-!
# C51 and C52: XML-RPC calls and responses
-/
namespace Verif.Props
open Verif.Model Verif.Spec Verif.Proof

/-! ### Calls -/

/-- The property: the method that is invoked gets the name and the parameters given by the caller. -/
def C51_statement : Prop :=
  ∀ c : XCall, c.count = c.params.length → (∀ v ∈ c.params, possible v) → plainText c.name →
    ∃ octets, c.marshal = some octets ∧ receiveCall octets = some c

def aux_xr_paramTree (v : XVal) : XNode := .elem (lit "param") [] [treeOf v]

theorem aux_xr_params : ∀ (vs : List XVal), (∀ v ∈ vs, sendable v) →
    Reads (marshalParams vs) ((vs.map aux_xr_paramTree).map .node)
  | [], _ => xr_reads_nil
  | v :: vs, h => by
    obtain ⟨s, e1, hs⟩ := xr_marshal_reads v (h v (by simp))
    have h1 := xr_reads_nodes (n := lit "param") (by decide) hs
    have h2 := aux_xr_params vs fun x hx => h x (by simp [hx])
    have e : marshalParams (v :: vs) = (xr_open (lit "param") ++ s ++ xr_close (lit "param")) ++ marshalParams vs := by
      unfold marshalParams
      rw [List.flatMap_cons, e1, show lit "<param>" = xr_open (lit "param") by decide,
        show lit "</param>" = xr_close (lit "param") by decide]
      rfl
    rw [e]
    exact xr_reads_append h1 h2

theorem aux_xr_parsed : ∀ (vs : List XVal), (∀ v ∈ vs, sendable v) → (vs.map aux_xr_paramTree).filterMap parseParam = vs
  | [], _ => rfl
  | v :: vs, h => by
    have := aux_xr_parsed vs fun x hx => h x (by simp [hx])
    have hv : parseParam (aux_xr_paramTree v) = some v := xr_parse v (h v (by simp))
    rw [List.map_cons, List.filterMap_cons, hv, this]

/-- **C51**, partial: a call whose values are sendable (see `Verif.Spec.sendable`) and whose name needs no quoting
arrives as it was made. Missing: base64 values, empty structs, and strings with the end mark of CDATA sections; see the
violations below. -/
theorem C51_call_partial (c : XCall) (hc : c.count = c.params.length) (hn : plainText c.name)
    (hv : ∀ v ∈ c.params, sendable v) :
    ∃ octets, c.marshal = some octets ∧ receiveCall octets = some c := by
  obtain ⟨name, count, params⟩ := c
  dsimp only at hc hn hv ⊢
  subst hc
  have rn := xr_reads_textnode (n := lit "methodName") (by decide) hn
  have e0 : lit "<?xml version=\"1.0\"?><methodCall><methodName>" =
      lit "<?xml version=\"1.0\"?>" ++ (xr_open (lit "methodCall") ++ xr_open (lit "methodName")) := by decide
  have e1 : lit "</methodName>" = xr_close (lit "methodName") := by decide
  have e2 : lit "</methodCall>" = xr_close (lit "methodCall") := by decide
  have e3 : lit "<params>" = xr_open (lit "params") := by decide
  have e4 : lit "</params>" = xr_close (lit "params") := by decide
  refine ⟨_, by unfold XCall.marshal; rw [if_neg (by simp)], ?_⟩
  rw [e0, e1, e2, e3, e4]
  unfold receiveCall
  cases params with
  | nil =>
    have hr := xr_doc (xr_reads_nodes (n := lit "methodCall") (by decide) rn)
    have : ∀ (a b c d f : List Byte), a ++ (b ++ c) ++ name ++ d ++ ([] : List Byte) ++ f = a ++ (b ++ (c ++ name ++ d) ++ f) := by
      intros; simp [List.append_assoc]
    simp only [List.length_nil, Nat.lt_irrefl, if_false]
    rw [this, hr]
    rfl
  | cons v vs =>
    have rp := xr_reads_nodes (n := lit "params") (by decide) (aux_xr_params (v :: vs) hv)
    have hr := xr_doc (xr_reads_nodes (n := lit "methodCall")
      (l := [.elem (lit "methodName") name [], .elem (lit "params") [] ((v :: vs).map aux_xr_paramTree)]) (by decide) (xr_reads_append rn rp))
    have : ∀ (a b c d f g : List Byte), a ++ (b ++ c) ++ name ++ d ++ g ++ f = a ++ (b ++ (c ++ name ++ d ++ g) ++ f) := by
      intros; simp [List.append_assoc]
    rw [if_pos (by simp), this, hr]
    have hp := aux_xr_parsed (v :: vs) hv
    generalize hk : (v :: vs).map aux_xr_paramTree = ks at hp
    have hl : ks.length = (v :: vs).length := by rw [← hk, List.length_map]
    have hne : lit "methodName" ≠ lit "params" := by decide
    have f1 : List.find? (fun x => decide (x.name = lit "methodName")) [XNode.elem (lit "methodName") name [], .elem (lit "params") [] ks] =
        some (.elem (lit "methodName") name []) := by
      rw [List.find?_cons_of_pos (by simp [XNode.name])]
    have f2 : List.find? (fun x => decide (x.name = lit "params")) [XNode.elem (lit "methodName") name [], .elem (lit "params") [] ks] =
        some (.elem (lit "params") [] ks) := by
      rw [List.find?_cons_of_neg (by simp only [XNode.name]; simp [hne]), List.find?_cons_of_pos (by simp [XNode.name])]
    dsimp only
    rw [if_neg (by simp [XNode.name])]
    simp only [XNode.kids]
    rw [f1, f2]
    simp only [XNode.content, XNode.kids, hl, hp]

/-- A call with a value of each kind. -/
example :
    let c : XCall := ⟨lit "a.b", 4, [.int (-25), .string (lit "x<y]]"), .struct [(lit "m", .boolean 1), (lit "k", .none)],
      .array [.double (lit "1.5"), .array []]]⟩
    c.marshal.bind receiveCall = some c := by decide +kernel

example : sendable (.struct [(lit "m", .boolean 1), (lit "k", .array [.int 7, .none])]) := by
  simp only [sendable, sendableMembers, sendableMember, sendableValues, isInt, plainText]
  refine ⟨by simp, ⟨by decide, by decide⟩, ⟨by decide, ⟨by decide, trivial, trivial⟩⟩, trivial⟩

/-- **Violation**: a base64 parameter is not sent, and the parameters behind it take its place. -/
theorem C51_base64_lost :
    (XCall.marshal ⟨lit "f", 2, [.base64 (lit "QQ=="), .int 5]⟩).bind receiveCall = some ⟨lit "f", 2, [.int 5]⟩ := by
  decide +kernel

/-- **Violation**: an empty struct is lost in the same way. -/
theorem C51_empty_struct_lost :
    (XCall.marshal ⟨lit "f", 2, [.struct [], .int 5]⟩).bind receiveCall = some ⟨lit "f", 2, [.int 5]⟩ := by
  decide +kernel

/-- **Violation**: a base64 member of a struct is sent as the text `(null)` (in C: a NULL pointer printed), and lost. -/
theorem C51_member_lost :
    XCall.marshal ⟨lit "f", 1, [.struct [(lit "a", .base64 (lit "QQ=="))]]⟩ = some (lit
      "<?xml version=\"1.0\"?><methodCall><methodName>f</methodName><params><param><value><struct><member><name>a</name>(null)</member></struct></value></param></params></methodCall>") ∧
    ((XCall.marshal ⟨lit "f", 1, [.struct [(lit "a", .base64 (lit "QQ==")), (lit "b", .int 5)]]⟩).bind receiveCall).map XCall.params =
      some [.struct [(lit "b", .int 5)]] := by
  decide +kernel

/-- A call with parameters missing is not sent. -/
theorem C51_incomplete (c : XCall) (h : c.count ≠ c.params.length) : c.marshal = none := by
  unfold XCall.marshal
  rw [if_pos h]

/-- A call that announced two parameters and has one. -/
example : (⟨lit "f", 2, [.int 5]⟩ : XCall).count ≠ (⟨lit "f", 2, [.int 5]⟩ : XCall).params.length := by decide

/-- **Violation**: a string with the end mark of CDATA sections changes the call: here it adds a parameter. -/
theorem C51_string_adds_parameter :
    (XCall.marshal ⟨lit "f", 1, [.string (lit "a]]></string></value></param><param><value><i4>7</i4></value></param><param><value><string><![CDATA[")]⟩).bind
      receiveCall = some ⟨lit "f", 3, [.string (lit "a"), .int 7, .string []]⟩ := by
  decide +kernel

theorem C51_statement_false : ¬ C51_statement := by
  intro h
  obtain ⟨o, h1, h2⟩ := h ⟨lit "f", 2, [.base64 (lit "QQ=="), .int 5]⟩ rfl
    (by
      intro v hv
      simp only [List.mem_cons, List.not_mem_nil, or_false] at hv
      rcases hv with rfl | rfl
      · simp [possible]
      · simp [possible, isInt])
    (by simp only [plainText]; decide)
  have := C51_base64_lost
  rw [h1, Option.bind_some, h2] at this
  exact absurd this (by decide +kernel)

/-- **C51**, whatever is received: never more parameters than announced. -/
theorem C51_no_excess (octets : List Byte) (c : XCall) (h : receiveCall octets = some c) : c.params.length ≤ c.count := by
  unfold receiveCall at h
  split at h
  · exact absurd h (by simp)
  · split at h
    · exact absurd h (by simp)
    · split at h
      · exact absurd h (by simp)
      · split at h
        · simp only [Option.some.injEq] at h; subst h; simp
        · simp only [Option.some.injEq] at h; subst h
          exact List.length_filterMap_le _ _

/-! ### Responses -/

/-- The property: the caller gets the value or the fault given by the method. -/
def C52_statement : Prop :=
  (∀ v, possible v → ∃ octets, (XResponse.ok v).marshal = some octets ∧ receiveResponse octets = .ok v) ∧
  ∀ code text, isInt code → ∃ octets, (XResponse.fault code text).marshal = some octets ∧ receiveResponse octets = .fault code text

theorem aux_xr_response {s : List Byte} {t : XNode} (hs : Reads s ([t].map .node)) :
    receiveResponse (lit "<?xml version=\"1.0\"?><methodResponse><params><param>" ++ s ++ lit "</param></params></methodResponse>") =
      match parseValue t with
      | some v => .ok v
      | none => .bad := by
  have hr := xr_doc (xr_reads_nodes (n := lit "methodResponse") (by decide) (xr_reads_nodes (n := lit "params") (by decide)
    (xr_reads_nodes (n := lit "param") (by decide) hs)))
  have e : lit "<?xml version=\"1.0\"?><methodResponse><params><param>" ++ s ++ lit "</param></params></methodResponse>" =
      lit "<?xml version=\"1.0\"?>" ++ (xr_open (lit "methodResponse") ++ (xr_open (lit "params") ++ (xr_open (lit "param") ++ s ++
        xr_close (lit "param")) ++ xr_close (lit "params")) ++ xr_close (lit "methodResponse")) := by
    rw [show lit "<?xml version=\"1.0\"?><methodResponse><params><param>" = lit "<?xml version=\"1.0\"?>" ++
        (xr_open (lit "methodResponse") ++ (xr_open (lit "params") ++ xr_open (lit "param"))) by decide,
      show lit "</param></params></methodResponse>" = xr_close (lit "param") ++ (xr_close (lit "params") ++ xr_close (lit "methodResponse")) by decide]
    simp only [List.append_assoc]
  rw [e]
  unfold receiveResponse
  rw [hr]
  dsimp only
  rw [if_neg (by simp [XNode.name])]
  simp only [XNode.kids]
  rw [if_neg (by simp only [XNode.name]; decide), if_pos (by simp [XNode.name])]
  rfl

theorem aux_xr_wrap (v : XVal) (hv : sendable v) (hn : v ≠ .none) : ∃ s, v.marshal = some s ∧
    (XResponse.ok v).marshal =
      some (lit "<?xml version=\"1.0\"?><methodResponse><params><param>" ++ s ++ lit "</param></params></methodResponse>") := by
  cases v with
  | int n =>
    refine ⟨_, rfl, ?_⟩
    unfold XResponse.marshal
    dsimp only
    rw [show lit "<value><i4>" = lit "<value>" ++ lit "<i4>" by decide, show lit "</i4></value>" = lit "</i4>" ++ lit "</value>" by decide]
    simp only [List.append_assoc]
  | boolean n =>
    refine ⟨_, rfl, ?_⟩
    unfold XResponse.marshal
    dsimp only
    rw [show lit "<value><boolean>" = lit "<value>" ++ lit "<boolean>" by decide,
      show lit "</boolean></value>" = lit "</boolean>" ++ lit "</value>" by decide]
    simp only [List.append_assoc]
  | double n =>
    refine ⟨_, rfl, ?_⟩
    unfold XResponse.marshal
    dsimp only
    rw [show lit "<value><double>" = lit "<value>" ++ lit "<double>" by decide,
      show lit "</double></value>" = lit "</double>" ++ lit "</value>" by decide]
    simp only [List.append_assoc]
  | string n =>
    refine ⟨_, rfl, ?_⟩
    unfold XResponse.marshal
    dsimp only
    rw [show lit "<value><string><![CDATA[" = lit "<value>" ++ lit "<string><![CDATA[" by decide,
      show lit "]]></string></value>" = lit "]]></string>" ++ lit "</value>" by decide]
    simp only [List.append_assoc]
  | struct ms => exact ⟨_, rfl, rfl⟩
  | array vs => exact ⟨_, rfl, rfl⟩
  | none => exact absurd rfl hn
  | base64 s => simp [sendable] at hv
  | date => simp [sendable] at hv
  | null => simp [sendable] at hv

/-- **C52**, values, partial: sendable values other than the none value, and base64 text that needs no quoting. Missing:
the violations below. -/
theorem C52_value_partial (v : XVal) (h : (sendable v ∧ v ≠ .none) ∨ ∃ t, v = .base64 t ∧ plainText t) :
    ∃ octets, (XResponse.ok v).marshal = some octets ∧ receiveResponse octets = .ok v := by
  rcases h with ⟨hv, hn⟩ | ⟨t, rfl, ht⟩
  · obtain ⟨s, hs, hm⟩ := aux_xr_wrap v hv hn
    obtain ⟨s', hs', hr⟩ := xr_marshal_reads v hv
    rw [hs] at hs'
    obtain rfl : s = s' := by simpa using hs'
    refine ⟨_, hm, ?_⟩
    rw [aux_xr_response hr, xr_parse v hv]
  · refine ⟨_, rfl, ?_⟩
    have hr := xr_reads_nodes (n := lit "value") (by decide) (xr_reads_textnode (n := lit "base64") (by decide) ht)
    rw [show lit "<value>" = xr_open (lit "value") by decide, show lit "</value>" = xr_close (lit "value") by decide,
      show lit "<base64>" = xr_open (lit "base64") by decide, show lit "</base64>" = xr_close (lit "base64") by decide,
      aux_xr_response hr]
    have hp : parseContent (.elem (lit "base64") t []) = some (.base64 t) := by
      rw [parseContent, if_neg (by decide), if_neg (by decide), if_neg (by decide), if_neg (by decide), if_neg (by decide),
        if_neg (by decide), if_pos (by decide)]
    simp only [parseValue, hp]
    rfl

/-- **C52**, faults, partial: texts without the end mark of CDATA sections. -/
theorem C52_fault_partial (code : Int) (text : List Byte) (hc : isInt code) (ht : noCdataEnd text) :
    ∃ octets, (XResponse.fault code text).marshal = some octets ∧ receiveResponse octets = .fault code text := by
  refine ⟨_, rfl, ?_⟩
  have r1 := xr_reads_textnode (n := lit "name") (t := lit "faultCode") (by decide) (by simp only [plainText]; decide)
  have r2 := xr_reads_nodes (n := lit "value") (by decide) (xr_reads_textnode (n := lit "int") (by decide) (xr_print_plain code))
  have r3 := xr_reads_textnode (n := lit "name") (t := lit "faultString") (by decide) (by simp only [plainText]; decide)
  have r4 := xr_reads_nodes (n := lit "value") (by decide) (xr_reads_cdatanode (n := lit "string") (by decide) ht)
  have m1 := xr_reads_nodes (n := lit "member") (l := [.elem (lit "name") (lit "faultCode") [],
    .elem (lit "value") [] [.elem (lit "int") (printInt code) []]]) (by decide) (xr_reads_append r1 r2)
  have m2 := xr_reads_nodes (n := lit "member") (l := [.elem (lit "name") (lit "faultString") [],
    .elem (lit "value") [] [.elem (lit "string") text []]]) (by decide) (xr_reads_append r3 r4)
  have hr := xr_doc (xr_reads_nodes (n := lit "methodResponse") (by decide) (xr_reads_nodes (n := lit "fault") (by decide)
    (xr_reads_nodes (n := lit "value") (by decide) (xr_reads_nodes (n := lit "struct")
      (l := [.elem (lit "member") [] [.elem (lit "name") (lit "faultCode") [], .elem (lit "value") [] [.elem (lit "int") (printInt code) []]],
        .elem (lit "member") [] [.elem (lit "name") (lit "faultString") [], .elem (lit "value") [] [.elem (lit "string") text []]]])
      (by decide) (xr_reads_append m1 m2)))))
  have e1 : lit "<?xml version=\"1.0\"?><methodResponse><fault><value><struct><member><name>faultCode</name><value><int>" =
      lit "<?xml version=\"1.0\"?>" ++ (xr_open (lit "methodResponse") ++ (xr_open (lit "fault") ++ (xr_open (lit "value") ++
        (xr_open (lit "struct") ++ (xr_open (lit "member") ++ (xr_open (lit "name") ++ (lit "faultCode" ++ (xr_close (lit "name") ++
          (xr_open (lit "value") ++ xr_open (lit "int")))))))))) := by decide
  have e2 : lit "</int></value></member><member><name>faultString</name><value><string><![CDATA[" =
      xr_close (lit "int") ++ (xr_close (lit "value") ++ (xr_close (lit "member") ++ (xr_open (lit "member") ++ (xr_open (lit "name") ++
        (lit "faultString" ++ (xr_close (lit "name") ++ (xr_open (lit "value") ++ (xr_open (lit "string") ++ lit "<![CDATA[")))))))) := by
    decide
  have e3 : lit "]]></string></value></member></struct></value></fault></methodResponse>" =
      lit "]]>" ++ (xr_close (lit "string") ++ (xr_close (lit "value") ++ (xr_close (lit "member") ++ (xr_close (lit "struct") ++
        (xr_close (lit "value") ++ (xr_close (lit "fault") ++ xr_close (lit "methodResponse"))))))) := by decide
  rw [e1, e2, e3]
  simp only [List.append_assoc] at hr ⊢
  unfold receiveResponse
  rw [hr]
  dsimp only
  rw [if_neg (by simp [XNode.name])]
  simp only [XNode.kids]
  rw [if_pos (by simp [XNode.name])]
  have p1 : parseValue (.elem (lit "value") [] [.elem (lit "int") (printInt code) []]) = some (.int code) := by
    have : parseContent (.elem (lit "int") (printInt code) []) = some (.int code) := by
      rw [parseContent, if_neg (by decide), if_pos (by decide), xr_scan_print code hc]; rfl
    simp only [parseValue, this]; rfl
  have p2 : parseValue (.elem (lit "value") [] [.elem (lit "string") text []]) = some (.string text) := by
    have : parseContent (.elem (lit "string") text []) = some (.string text) := by
      rw [parseContent, if_neg (by decide), if_neg (by decide), if_neg (by decide), if_pos (by decide)]
    simp only [parseValue, this]; rfl
  have p3 : parseValue (.elem (lit "value") [] [.elem (lit "struct") []
      [.elem (lit "member") [] [.elem (lit "name") (lit "faultCode") [], .elem (lit "value") [] [.elem (lit "int") (printInt code) []]],
        .elem (lit "member") [] [.elem (lit "name") (lit "faultString") [], .elem (lit "value") [] [.elem (lit "string") text []]]]]) =
      some (.struct [(lit "faultCode", .int code), (lit "faultString", .string text)]) := by
    rw [parseValue, if_neg (by simp), parseContent.eq_def]
    dsimp only
    rw [if_neg (by decide), if_neg (by decide), if_neg (by decide), if_neg (by decide), if_neg (by decide),
        if_neg (by decide), if_neg (by decide), if_pos (by decide)]
    simp only [parseMembers, p1, p2, XNode.content]
  simp only [List.head?_cons, Option.bind_some]
  rw [p3]
  have hne : lit "faultCode" ≠ lit "faultString" := by decide
  have f1 : List.find? (fun x : List Byte × XVal => decide (x.1 = lit "faultString"))
      [(lit "faultCode", XVal.int code), (lit "faultString", .string text)] = some (lit "faultString", .string text) := by
    rw [List.find?_cons_of_neg (by simp [hne]), List.find?_cons_of_pos (by simp)]
  have f2 : List.find? (fun x : List Byte × XVal => decide (x.1 = lit "faultCode"))
      [(lit "faultCode", XVal.int code), (lit "faultString", .string text)] = some (lit "faultCode", .int code) := by
    rw [List.find?_cons_of_pos (by simp)]
  dsimp only
  rw [f1, f2]
  rfl

example : ((XResponse.ok (.struct [(lit "a", .int 3), (lit "b", .array [.string (lit "x & y"), .none])])).marshal).map receiveResponse =
    some (.ok (.struct [(lit "a", .int 3), (lit "b", .array [.string (lit "x & y"), .none])])) := by decide +kernel

example : ((XResponse.fault (-7) (lit "no such <method>")).marshal).map receiveResponse =
    some (.fault (-7) (lit "no such <method>")) := by decide +kernel

/-- **Violation**: a method that returns the none value (what a NULL struct or array becomes) is never answered. -/
theorem C52_none_not_answered : (XResponse.ok .none).marshal = none := rfl

/-- **Violation**: a fault text with the end mark of CDATA sections makes the reply unreadable, or another fault. -/
theorem C52_fault_changed :
    ((XResponse.fault 3 (lit "a]]></string></value></member><member><name>faultString</name><value><string><![CDATA[b")).marshal).map
      receiveResponse = some (.fault 3 (lit "a")) ∧
    ((XResponse.fault 3 (lit "]]>&")).marshal).map receiveResponse = some .bad := by decide +kernel

theorem C52_statement_false : ¬ C52_statement := by
  rintro ⟨h, _⟩
  obtain ⟨o, h1, _⟩ := h .none (by simp [possible])
  rw [C52_none_not_answered] at h1
  exact absurd h1 (by simp)

end Verif.Props
