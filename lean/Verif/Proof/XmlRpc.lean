import Verif.Proof.XmlEq
import Verif.Spec.XmlRpc
/-!
# Reading what the XML-RPC functions write
-/
namespace Verif.Proof
open Verif.Model Verif.Spec

theorem xr_after_append (p s : List Byte) : after p (p ++ s) = some s := by
  induction p with
  | nil => rfl
  | cons b p ih => simp [after, ih]

/-- More fuel does not change what is read. -/
theorem xr_mono : ∀ (fuel : Nat) (s : List Byte) (y : List XPiece × List Byte), readPieces fuel s = some y →
    readPieces (fuel + 1) s = some y
  | 0, _, _, h => by simp [readPieces] at h
  | fuel + 1, [], y, h => by simpa [readPieces] using h
  | fuel + 1, b :: s, y, h => by
    have ih := fun s y => xr_mono fuel s y
    have ihm : ∀ (s : List Byte) (f : List XPiece × List Byte → List XPiece × List Byte) y,
        (readPieces fuel s).map f = some y → (readPieces (fuel + 1) s).map f = some y := by
      intro s f y h
      cases hr : readPieces fuel s with
      | none => simp [hr] at h
      | some z => rw [ih _ _ hr]; simpa [hr] using h
    rw [readPieces] at h ⊢
    dsimp only at h ⊢
    split at h
    · rename_i hb
      rw [if_pos hb]
      split at h
      · exact absurd h (by simp)
      · rename_i hc
        rw [if_neg hc]
        exact ihm _ _ _ h
    · rename_i hb
      rw [if_neg hb]
      cases h1 : after (lit "![CDATA[") s with
      | some r =>
        rw [h1] at h
        dsimp only at h ⊢
        cases h2 : cdataEnd r with
        | none => rw [h2] at h; exact absurd h (by simp)
        | some tr =>
          rw [h2] at h
          dsimp only at h ⊢
          exact ihm _ _ _ h
      | none =>
        rw [h1] at h
        dsimp only at h ⊢
        cases h2 : after (lit "/") s with
        | some r => rw [h2] at h; exact h
        | none =>
          rw [h2] at h
          dsimp only at h ⊢
          split at h
          · exact absurd h (by simp)
          · rename_i hn
            rw [if_neg hn]
            cases h3 : after (lit " />") (s.dropWhile isNameChar) with
            | some r =>
              rw [h3] at h
              dsimp only at h ⊢
              exact ihm _ _ _ h
            | none =>
              rw [h3] at h
              dsimp only at h ⊢
              cases h4 : after (lit ">") (s.dropWhile isNameChar) with
              | none => rw [h4] at h; exact absurd h (by simp)
              | some r =>
                rw [h4] at h
                dsimp only at h ⊢
                cases h5 : readPieces fuel r with
                | none => rw [h5] at h; exact absurd h (by simp)
                | some ir =>
                  rw [h5] at h
                  rw [ih _ _ h5]
                  dsimp only at h ⊢
                  cases h6 : after (lit "</" ++ s.takeWhile isNameChar ++ lit ">") ir.2 with
                  | none => rw [h6] at h; exact absurd h (by simp)
                  | some r' =>
                    rw [h6] at h
                    dsimp only at h ⊢
                    exact ihm _ _ _ h

theorem xr_mono_add (k : Nat) : ∀ (fuel : Nat) (s : List Byte) (y : List XPiece × List Byte), readPieces fuel s = some y →
    readPieces (fuel + k) s = some y := by
  induction k with
  | zero => intro fuel s y h; exact h
  | succ k ih => intro fuel s y h; exact xr_mono _ _ _ (ih _ _ _ h)

theorem xr_mono_le {fuel fuel' : Nat} {s : List Byte} {y : List XPiece × List Byte} (h : readPieces fuel s = some y)
    (hle : fuel ≤ fuel') : readPieces fuel' s = some y := by
  have := xr_mono_add (fuel' - fuel) fuel s y h
  rwa [show fuel + (fuel' - fuel) = fuel' by omega] at this

/-- The octets `s` are read as the pieces `ps`, whatever follows. -/
def Reads (s : List Byte) (ps : List XPiece) : Prop :=
  ∀ fuel rest x r, readPieces fuel rest = some (x, r) → readPieces (fuel + s.length) (s ++ rest) = some (ps ++ x, r)

theorem xr_reads_nil : Reads [] [] := fun _ _ _ _ h => h

theorem xr_reads_append {s t : List Byte} {ps qs : List XPiece} (h1 : Reads s ps) (h2 : Reads t qs) : Reads (s ++ t) (ps ++ qs) := by
  intro fuel rest x r h
  have := h1 _ _ _ _ (h2 _ _ _ _ h)
  rw [List.append_assoc, List.append_assoc, List.length_append, show fuel + (s.length + t.length) = fuel + t.length + s.length by omega]
  exact this

/-- Names of elements. -/
def xr_name (n : List Byte) : Prop := n ≠ [] ∧ (∀ b ∈ n, isNameChar b = true) ∧ n.head? ≠ some 33

instance (n : List Byte) : Decidable (xr_name n) := by unfold xr_name; infer_instance

def xr_open (n : List Byte) : List Byte := 60 :: (n ++ [62])
def xr_close (n : List Byte) : List Byte := 60 :: 47 :: (n ++ [62])

theorem xr_span {n : List Byte} (h : ∀ b ∈ n, isNameChar b = true) {c : Byte} (hc : isNameChar c = false) (r : List Byte) :
    (n ++ c :: r).takeWhile isNameChar = n ∧ (n ++ c :: r).dropWhile isNameChar = c :: r := by
  induction n with
  | nil => simp [List.takeWhile, List.dropWhile, hc]
  | cons b n ih =>
    have hb := h b (by simp)
    obtain ⟨i1, i2⟩ := ih fun x hx => h x (by simp [hx])
    simp [List.takeWhile, List.dropWhile, hb, i1, i2]

/-- How the start of an element is read. -/
theorem xr_start {n : List Byte} (hn : xr_name n) (c : Byte) (s : List Byte) :
    after (lit "![CDATA[") (n ++ c :: s) = none ∧ after (lit "/") (n ++ c :: s) = none := by
  obtain ⟨h0, h1, h2⟩ := hn
  cases n with
  | nil => exact absurd rfl h0
  | cons b n =>
    have hb := h1 b (by simp)
    have hb1 : b ≠ 33 := by simpa using h2
    have hb2 : b ≠ 47 := by rintro rfl; revert hb; decide
    have e1 : lit "![CDATA[" = 33 :: lit "[CDATA[" := by decide
    have e2 : lit "/" = [47] := by decide
    rw [e1, e2]
    constructor
    · simp only [List.cons_append, after]; rw [if_neg (Ne.symm hb1)]
    · simp only [List.cons_append, after]; rw [if_neg (Ne.symm hb2)]

theorem xr_close_stop (n : List Byte) (rest : List Byte) (fuel : Nat) :
    readPieces (fuel + 1) (xr_close n ++ rest) = some ([], xr_close n ++ rest) := by
  have e1 : after (lit "![CDATA[") (47 :: (n ++ [62] ++ rest)) = none := by
    rw [show lit "![CDATA[" = 33 :: lit "[CDATA[" by decide]
    simp only [after]; rw [if_neg (by decide)]
  have e2 : after (lit "/") (47 :: (n ++ [62] ++ rest)) = some (n ++ [62] ++ rest) := by
    rw [show lit "/" = [47] by decide]; simp [after]
  simp only [xr_close, List.cons_append]
  rw [readPieces]
  dsimp only
  rw [if_neg (by decide), e1]
  dsimp only
  rw [e2]

/-- An element whose inside is read as `ps` when its end follows. -/
theorem xr_element {n s : List Byte} {ps : List XPiece} (hn : xr_name n)
    (hin : ∀ fuel rest, s.length < fuel → readPieces fuel (s ++ xr_close n ++ rest) = some (ps, xr_close n ++ rest)) :
    Reads (xr_open n ++ s ++ xr_close n) [.node (.make n ps)] := by
  intro fuel rest x r h
  have hst := xr_start hn 62 (s ++ xr_close n ++ rest)
  have hsp := xr_span hn.2.1 (c := 62) (by decide) (s ++ xr_close n ++ rest)
  have hlen : (xr_open n ++ s ++ xr_close n).length = (n.length + s.length + n.length + 4) + 1 := by
    simp [xr_open, xr_close]; omega
  have e : xr_open n ++ s ++ xr_close n ++ rest = 60 :: (n ++ 62 :: (s ++ xr_close n ++ rest)) := by
    simp [xr_open]
  rw [e, hlen, ← Nat.add_assoc, readPieces]
  dsimp only
  rw [if_neg (by decide), hst.1]
  dsimp only
  rw [hst.2]
  dsimp only
  rw [hsp.1, hsp.2, if_neg hn.1]
  have a1 : after (lit " />") (62 :: (s ++ xr_close n ++ rest)) = none := by
    rw [show lit " />" = [32, 47, 62] by decide]; simp [after]
  have a2 : after (lit ">") (62 :: (s ++ xr_close n ++ rest)) = some (s ++ xr_close n ++ rest) := by
    rw [show lit ">" = [62] by decide]; simp [after]
  rw [a1]
  dsimp only
  rw [a2]
  dsimp only
  rw [hin _ rest (by omega)]
  dsimp only
  have a3 : after (lit "</" ++ n ++ lit ">") (xr_close n ++ rest) = some rest := by
    have : lit "</" ++ n ++ lit ">" = xr_close n := by
      rw [show lit "</" = [60, 47] by decide, show lit ">" = [62] by decide]; simp [xr_close]
    rw [this]; exact xr_after_append _ _
  rw [a3]
  dsimp only
  rw [xr_mono_le h (by omega)]
  simp

theorem xr_reads_elem {n s : List Byte} {ps : List XPiece} (hn : xr_name n) (hs : Reads s ps) :
    Reads (xr_open n ++ s ++ xr_close n) [.node (.make n ps)] := by
  refine xr_element hn fun fuel rest hf => ?_
  have := hs 1 (xr_close n ++ rest) [] _ (xr_close_stop n rest 0)
  rw [List.append_assoc]
  have h2 := xr_mono_le this (fuel' := fuel) (by omega)
  simpa using h2

theorem xr_reads_text {n t : List Byte} (hn : xr_name n) (ht : plainText t) :
    Reads (xr_open n ++ t ++ xr_close n) [.node (.elem n t [])] := by
  cases t with
  | nil =>
    have := xr_reads_elem hn xr_reads_nil
    exact this
  | cons b t =>
    have : XNode.elem n (b :: t) [] = .make n [.text (b :: t)] := rfl
    rw [this]
    refine xr_element hn fun fuel rest hf => ?_
    obtain ⟨f, rfl⟩ : ∃ f, fuel = f + 1 + 1 := ⟨fuel - 2, by simp at hf; omega⟩
    have hb := ht b (by simp)
    have hw : ∀ l : List Byte, (∀ b ∈ l, b ≠ 60) → (l ++ (xr_close n ++ rest)).takeWhile (· ≠ 60) = l ∧
        (l ++ (xr_close n ++ rest)).dropWhile (· ≠ 60) = xr_close n ++ rest := by
      intro l hl
      induction l with
      | nil => simp [xr_close, List.takeWhile, List.dropWhile]
      | cons c l ih =>
        obtain ⟨i1, i2⟩ := ih fun x hx => hl x (by simp [hx])
        have hc := hl c (by simp)
        constructor
        · rw [List.cons_append, List.takeWhile_cons_of_pos (by simpa using hc), i1]
        · rw [List.cons_append, List.dropWhile_cons_of_pos (by simpa using hc), i2]
    obtain ⟨w1, w2⟩ := hw (b :: t) fun x hx => (ht x hx).1
    rw [List.append_assoc, List.cons_append, readPieces]
    dsimp only
    rw [if_pos hb.1, ← List.cons_append, w1, w2]
    have hc : (b :: t).contains 38 = false := by
      rw [Bool.eq_false_iff]
      intro h
      exact (ht 38 (by simpa using h)).2 rfl
    rw [hc, if_neg (by decide), xr_close_stop]
    simp

theorem xr_reads_empty {n : List Byte} (hn : xr_name n) : Reads (60 :: (n ++ [32, 47, 62])) [.node (.elem n [] [])] := by
  intro fuel rest x r h
  have hst := xr_start hn 32 (47 :: 62 :: rest)
  have hsp := xr_span hn.2.1 (c := 32) (by decide) (47 :: 62 :: rest)
  have hlen : (60 :: (n ++ [32, 47, 62])).length = (n.length + 3) + 1 := by simp
  have e : (60 : Byte) :: (n ++ [32, 47, 62]) ++ rest = 60 :: (n ++ 32 :: 47 :: 62 :: rest) := by simp
  rw [e, hlen, ← Nat.add_assoc, readPieces]
  dsimp only
  rw [if_neg (by decide), hst.1]
  dsimp only
  rw [hst.2]
  dsimp only
  rw [hsp.1, hsp.2, if_neg hn.1]
  have a1 : after (lit " />") (32 :: 47 :: 62 :: rest) = some rest := by
    rw [show lit " />" = [32, 47, 62] by decide]; simp [after]
  rw [a1]
  dsimp only
  rw [xr_mono_le h (by omega)]
  simp

theorem xr_cdataEnd : ∀ (t rest : List Byte), noCdataEnd t → cdataEnd (t ++ (lit "]]>" ++ rest)) = some (t, rest)
  | [], rest, _ => by
    have : lit "]]>" = [93, 93, 62] := by decide
    simp [this, cdataEnd, after]
  | b :: t, rest, h => by
    have e : lit "]]>" = [93, 93, 62] := by decide
    have ht : noCdataEnd t := by
      rintro ⟨a, c, rfl⟩
      exact h ⟨b :: a, c, by simp⟩
    have hne : after (lit "]]>") (b :: (t ++ (lit "]]>" ++ rest))) = none := by
      rw [e]
      by_cases h1 : b = 93
      · subst h1
        cases t with
        | nil => simp [after]
        | cons c t =>
          by_cases h2 : c = 93
          · subst h2
            cases t with
            | nil => simp [after]
            | cons d t =>
              by_cases h3 : d = 62
              · subst h3
                exact absurd ⟨[], t, by rw [e]; simp⟩ h
              · simp [after, Ne.symm h3]
          · simp [after, Ne.symm h2]
      · simp [after, Ne.symm h1]
    rw [List.cons_append, cdataEnd, hne]
    dsimp only
    rw [xr_cdataEnd t rest ht]
    rfl

theorem xr_reads_cdata {t : List Byte} (ht : noCdataEnd t) : Reads (lit "<![CDATA[" ++ t ++ lit "]]>") [.text t] := by
  intro fuel rest x r h
  have e : lit "<![CDATA[" ++ t ++ lit "]]>" ++ rest = 60 :: (lit "![CDATA[" ++ (t ++ (lit "]]>" ++ rest))) := by
    rw [show lit "<![CDATA[" = 60 :: lit "![CDATA[" by decide]; simp
  have hlen : (lit "<![CDATA[" ++ t ++ lit "]]>").length = (t.length + 11) + 1 := by
    rw [List.length_append, List.length_append, show (lit "<![CDATA[").length = 9 by decide, show (lit "]]>").length = 3 by decide]
    omega
  rw [e, hlen, ← Nat.add_assoc, readPieces]
  dsimp only
  rw [if_neg (by decide), xr_after_append]
  dsimp only
  rw [xr_cdataEnd _ _ ht]
  dsimp only
  rw [xr_mono_le h (by omega)]
  simp

/-! ## Numbers -/

theorem xr_digits_val : ∀ (k n : Nat), n < k → (printDigits k n).foldl (fun a d => a * 10 + (d.toNat - 48)) 0 = n
  | 0, n, h => by omega
  | k + 1, n, h => by
    rw [printDigits]
    split
    · rename_i h10
      simp only [List.foldl_cons, List.foldl_nil]
      rw [UInt8.toNat_ofNat_of_lt' (by show 48 + n < 256; omega)]
      omega
    · rename_i h10
      rw [List.foldl_append, xr_digits_val k (n / 10) (by omega)]
      simp only [List.foldl_cons, List.foldl_nil]
      rw [UInt8.toNat_ofNat_of_lt' (by show 48 + n % 10 < 256; omega)]
      omega

theorem xr_digits_range : ∀ (k n : Nat), ∀ b ∈ printDigits k n, 48 ≤ b ∧ b ≤ 57
  | 0, n, b, h => by simp [printDigits] at h
  | k + 1, n, b, h => by
    have key : ∀ m, m < 10 → (48 : Byte) ≤ UInt8.ofNat (48 + m) ∧ UInt8.ofNat (48 + m) ≤ 57 := by decide
    rw [printDigits] at h
    split at h
    · rename_i h10
      simp only [List.mem_singleton] at h
      subst h; exact key n h10
    · rw [List.mem_append] at h
      rcases h with h | h
      · exact xr_digits_range k _ b h
      · simp only [List.mem_singleton] at h
        subst h; exact key _ (Nat.mod_lt _ (by decide))

theorem xr_digits_ne (k n : Nat) : printDigits (k + 1) n ≠ [] := by
  rw [printDigits]; split <;> simp

theorem xr_print_plain (n : Int) : plainText (printInt n) := by
  have key : ∀ m, plainText (printNat m) := by
    intro m b hb
    have := xr_digits_range _ _ b hb
    constructor <;> rintro rfl
    · exact absurd this.2 (by decide)
    · exact absurd this.1 (by decide)
  unfold printInt
  split
  · intro b hb
    rw [List.mem_cons] at hb
    rcases hb with rfl | hb
    · decide
    · exact key _ b hb
  · exact key _

theorem xr_scan_print (n : Int) (h : isInt n) : scanInt (printInt n) = some n := by
  obtain ⟨h1, h2⟩ := h
  have hall : (printNat n.natAbs).all (fun b => 48 ≤ b && b ≤ 57) = true := by
    rw [List.all_eq_true]
    intro b hb
    have := xr_digits_range _ _ b hb
    simp [this]
  have hval := xr_digits_val (n.natAbs + 1) n.natAbs (by omega)
  have hr := xr_digits_range (n.natAbs + 1) n.natAbs
  have hne := xr_digits_ne n.natAbs n.natAbs
  unfold printInt
  unfold printNat at hall ⊢
  cases hd : printDigits (n.natAbs + 1) n.natAbs with
  | nil => exact absurd hd hne
  | cons d ds =>
    rw [hd] at hall hval hr
    have hd0 := hr d (by simp)
    have hs : scanDigits (d :: ds) = some (n.natAbs : Int) := by
      unfold scanDigits; rw [if_pos hall, hval]
    split
    · rename_i hn
      rw [scanInt, if_pos ⟨rfl, by simp⟩, hs]
      simp only [Option.map_some]
      rw [show max (-(n.natAbs : Int)) (-9223372036854775808) = n by omega]
      unfold i32
      congr 1; omega
    · rename_i hn
      have hd1 : d ≠ 45 := by rintro rfl; exact absurd hd0.1 (by decide)
      have hd2 : d ≠ 43 := by rintro rfl; exact absurd hd0.1 (by decide)
      rw [scanInt, if_neg (fun h => hd1 h.1), if_neg (fun h => hd2 h.1), hs]
      simp only [Option.map_some]
      rw [show min (n.natAbs : Int) 9223372036854775807 = n by omega]
      unfold i32
      congr 1; omega

/-! ## Values -/

mutual
/-- The element that carries a value. -/
def treeOf : XVal → XNode
  | .int n => .elem (lit "value") [] [.elem (lit "i4") (printInt n) []]
  | .boolean n => .elem (lit "value") [] [.elem (lit "boolean") (printInt n) []]
  | .double t => .elem (lit "value") [] [.elem (lit "double") t []]
  | .string s => .elem (lit "value") [] [.elem (lit "string") s []]
  | .struct ms => .elem (lit "value") [] [.elem (lit "struct") [] (treesOfMembers ms)]
  | .array vs => .elem (lit "value") [] [.elem (lit "array") [] [.elem (lit "data") [] (treesOf vs)]]
  | _ => .elem (lit "value") [] [.elem (lit "none") [] []]

def treesOfMembers : List (List Byte × XVal) → List XNode
  | [] => []
  | m :: ms => treeOfMember m :: treesOfMembers ms

def treeOfMember : List Byte × XVal → XNode
  | (name, v) => .elem (lit "member") [] [.elem (lit "name") name [], treeOf v]

def treesOf : List XVal → List XNode
  | [] => []
  | v :: vs => treeOf v :: treesOf vs
end

theorem xr_make_nodes (n : List Byte) (l : List XNode) : XNode.make n (l.map .node) = .elem n [] l := by
  have h1 : (l.map XPiece.node).filterMap XPiece.asText = [] := by
    induction l with
    | nil => rfl
    | cons a l ih => simp only [List.map_cons, List.filterMap_cons, XPiece.asText, ih]
  have h2 : (l.map XPiece.node).filterMap XPiece.asNode = l := by
    clear h1
    induction l with
    | nil => rfl
    | cons a l ih => simp only [List.map_cons, List.filterMap_cons, XPiece.asNode, ih]
  unfold XNode.make
  rw [h1, h2]; rfl

/-- An element that holds elements. -/
theorem xr_reads_nodes {n s : List Byte} {l : List XNode} (hn : xr_name n) (hs : Reads s (l.map .node)) :
    Reads (xr_open n ++ s ++ xr_close n) ([XNode.elem n [] l].map .node) := by
  have := xr_reads_elem hn hs
  rw [xr_make_nodes] at this
  exact this

theorem xr_reads_textnode {n t : List Byte} (hn : xr_name n) (ht : plainText t) :
    Reads (xr_open n ++ t ++ xr_close n) ([XNode.elem n t []].map .node) := xr_reads_text hn ht

theorem xr_reads_cdatanode {n t : List Byte} (hn : xr_name n) (ht : noCdataEnd t) :
    Reads (xr_open n ++ (lit "<![CDATA[" ++ t ++ lit "]]>") ++ xr_close n) ([XNode.elem n t []].map .node) :=
  xr_reads_elem hn (xr_reads_cdata ht)

mutual
theorem xr_marshal_reads : ∀ v, sendable v → ∃ s, v.marshal = some s ∧ Reads s ([treeOf v].map .node)
  | .int n, _ => by
    refine ⟨_, rfl, ?_⟩
    have := xr_reads_nodes (n := lit "value") (by decide) (xr_reads_textnode (n := lit "i4") (by decide) (xr_print_plain n))
    have e : lit "<value><i4>" ++ printInt n ++ lit "</i4></value>" =
        xr_open (lit "value") ++ (xr_open (lit "i4") ++ printInt n ++ xr_close (lit "i4")) ++ xr_close (lit "value") := by
      rw [show lit "<value><i4>" = xr_open (lit "value") ++ xr_open (lit "i4") by decide,
        show lit "</i4></value>" = xr_close (lit "i4") ++ xr_close (lit "value") by decide]
      simp only [List.append_assoc]
    rw [e]; exact this
  | .boolean n, _ => by
    refine ⟨_, rfl, ?_⟩
    have := xr_reads_nodes (n := lit "value") (by decide) (xr_reads_textnode (n := lit "boolean") (by decide) (xr_print_plain n))
    have e : lit "<value><boolean>" ++ printInt n ++ lit "</boolean></value>" =
        xr_open (lit "value") ++ (xr_open (lit "boolean") ++ printInt n ++ xr_close (lit "boolean")) ++ xr_close (lit "value") := by
      rw [show lit "<value><boolean>" = xr_open (lit "value") ++ xr_open (lit "boolean") by decide,
        show lit "</boolean></value>" = xr_close (lit "boolean") ++ xr_close (lit "value") by decide]
      simp only [List.append_assoc]
    rw [e]; exact this
  | .double t, h => by
    refine ⟨_, rfl, ?_⟩
    have := xr_reads_nodes (n := lit "value") (by decide)
      (xr_reads_textnode (n := lit "double") (by decide) (show plainText t by simpa [sendable] using h))
    have e : lit "<value><double>" ++ t ++ lit "</double></value>" =
        xr_open (lit "value") ++ (xr_open (lit "double") ++ t ++ xr_close (lit "double")) ++ xr_close (lit "value") := by
      rw [show lit "<value><double>" = xr_open (lit "value") ++ xr_open (lit "double") by decide,
        show lit "</double></value>" = xr_close (lit "double") ++ xr_close (lit "value") by decide]
      simp only [List.append_assoc]
    rw [e]; exact this
  | .string t, h => by
    refine ⟨_, rfl, ?_⟩
    have := xr_reads_nodes (n := lit "value") (by decide)
      (xr_reads_cdatanode (n := lit "string") (by decide) (show noCdataEnd t by simpa [sendable] using h))
    have e : lit "<value><string><![CDATA[" ++ t ++ lit "]]></string></value>" =
        xr_open (lit "value") ++ (xr_open (lit "string") ++ (lit "<![CDATA[" ++ t ++ lit "]]>") ++ xr_close (lit "string")) ++
          xr_close (lit "value") := by
      rw [show lit "<value><string><![CDATA[" = xr_open (lit "value") ++ (xr_open (lit "string") ++ lit "<![CDATA[") by decide,
        show lit "]]></string></value>" = lit "]]>" ++ (xr_close (lit "string") ++ xr_close (lit "value")) by decide]
      simp only [List.append_assoc]
    rw [e]; exact this
  | .base64 _, h => by simp [sendable] at h
  | .date, h => by simp [sendable] at h
  | .null, h => by simp [sendable] at h
  | .none, _ => by
    refine ⟨_, rfl, ?_⟩
    have h1 : Reads (lit "<none />") ([XNode.elem (lit "none") [] []].map .node) := by
      have := xr_reads_empty (n := lit "none") (by decide)
      exact this
    have := xr_reads_nodes (n := lit "value") (by decide) h1
    have e : lit "<value><none /></value>" = xr_open (lit "value") ++ lit "<none />" ++ xr_close (lit "value") := by decide
    rw [e]; exact this
  | .struct ms, h => by
    have h' : sendableMembers ms := by
      have : ms ≠ [] ∧ sendableMembers ms := by simpa [sendable] using h
      exact this.2
    refine ⟨_, rfl, ?_⟩
    have := xr_reads_nodes (n := lit "value") (by decide)
      (xr_reads_nodes (n := lit "struct") (by decide) (xr_members_read ms h'))
    rw [show lit "<value>" = xr_open (lit "value") by decide, show lit "</value>" = xr_close (lit "value") by decide,
      show lit "<struct>" = xr_open (lit "struct") by decide, show lit "</struct>" = xr_close (lit "struct") by decide]
    exact this
  | .array vs, h => by
    have h' : sendableValues vs := by simpa [sendable] using h
    refine ⟨_, rfl, ?_⟩
    have := xr_reads_nodes (n := lit "value") (by decide)
      (xr_reads_nodes (n := lit "array") (by decide) (xr_reads_nodes (n := lit "data") (by decide) (xr_values_read vs h')))
    have e : lit "<value>" ++ (lit "<array><data>" ++ marshalValues vs ++ lit "</data></array>") ++ lit "</value>" =
        xr_open (lit "value") ++ (xr_open (lit "array") ++ (xr_open (lit "data") ++ marshalValues vs ++ xr_close (lit "data")) ++
          xr_close (lit "array")) ++ xr_close (lit "value") := by
      rw [show lit "<value>" = xr_open (lit "value") by decide, show lit "</value>" = xr_close (lit "value") by decide,
        show lit "<array><data>" = xr_open (lit "array") ++ xr_open (lit "data") by decide,
        show lit "</data></array>" = xr_close (lit "data") ++ xr_close (lit "array") by decide]
      simp only [List.append_assoc]
    rw [e]; exact this

theorem xr_members_read : ∀ ms, sendableMembers ms → Reads (marshalMembers ms) ((treesOfMembers ms).map .node)
  | [], _ => xr_reads_nil
  | m :: ms, h => by
    have h' : sendableMember m ∧ sendableMembers ms := by simpa [sendableMembers] using h
    exact xr_reads_append (xr_member_reads m h'.1) (xr_members_read ms h'.2)

theorem xr_member_reads : ∀ m, sendableMember m → Reads (marshalMember m) ([treeOfMember m].map .node)
  | (name, v), h => by
    have h' : plainText name ∧ sendable v := by simpa [sendableMember] using h
    obtain ⟨s, e1, hs⟩ := xr_marshal_reads v h'.2
    have := xr_reads_nodes (n := lit "member") (l := [.elem (lit "name") name [], treeOf v]) (by decide)
      (xr_reads_append (xr_reads_textnode (n := lit "name") (by decide) h'.1) hs)
    have e : marshalMember (name, v) =
        xr_open (lit "member") ++ (xr_open (lit "name") ++ name ++ xr_close (lit "name") ++ s) ++ xr_close (lit "member") := by
      rw [marshalMember, e1, show lit "<member><name>" = xr_open (lit "member") ++ xr_open (lit "name") by decide,
        show lit "</name>" = xr_close (lit "name") by decide, show lit "</member>" = xr_close (lit "member") by decide]
      simp only [List.append_assoc, printStr, Option.getD_some]
    rw [e]; exact this

theorem xr_values_read : ∀ vs, sendableValues vs → Reads (marshalValues vs) ((treesOf vs).map .node)
  | [], _ => xr_reads_nil
  | v :: vs, h => by
    have h' : sendable v ∧ sendableValues vs := by simpa [sendableValues] using h
    obtain ⟨s, e1, hs⟩ := xr_marshal_reads v h'.1
    have := xr_reads_append hs (xr_values_read vs h'.2)
    rw [marshalValues, e1]
    exact this
end

mutual
theorem xr_parse : ∀ v, sendable v → parseValue (treeOf v) = some v
  | .int n, h => by
    have hp : parseContent (.elem (lit "i4") (printInt n) []) = some (.int n) := by
      rw [parseContent, if_neg (by decide), if_pos (by decide), xr_scan_print n (by simpa [sendable] using h)]; rfl
    simp only [treeOf, parseValue, hp]; rfl
  | .boolean n, h => by
    have hp : parseContent (.elem (lit "boolean") (printInt n) []) = some (.boolean n) := by
      rw [parseContent, if_neg (by decide), if_neg (by decide), if_pos (by decide), xr_scan_print n (by simpa [sendable] using h)]; rfl
    simp only [treeOf, parseValue, hp]; rfl
  | .double t, h => by
    have hp : parseContent (.elem (lit "double") t []) = some (.double t) := by
      rw [parseContent, if_neg (by decide), if_neg (by decide), if_neg (by decide), if_neg (by decide), if_pos (by decide)]
    simp only [treeOf, parseValue, hp]; rfl
  | .string t, h => by
    have hp : parseContent (.elem (lit "string") t []) = some (.string t) := by
      rw [parseContent, if_neg (by decide), if_neg (by decide), if_neg (by decide), if_pos (by decide)]
    simp only [treeOf, parseValue, hp]; rfl
  | .base64 _, h => by simp [sendable] at h
  | .date, h => by simp [sendable] at h
  | .null, h => by simp [sendable] at h
  | .none, _ => by
    have hp : parseContent (.elem (lit "none") [] []) = some .none := by
      rw [parseContent, if_pos rfl]
    simp only [treeOf, parseValue, hp]; rfl
  | .struct ms, h => by
    have h' : ms ≠ [] ∧ sendableMembers ms := by simpa [sendable] using h
    have hp : parseContent (.elem (lit "struct") [] (treesOfMembers ms)) = some (.struct ms) := by
      have hm := xr_parse_members ms h'.2
      rw [parseContent.eq_def]
      dsimp only
      rw [if_neg (by decide), if_neg (by decide), if_neg (by decide), if_neg (by decide), if_neg (by decide),
        if_neg (by decide), if_neg (by decide), if_pos (by decide)]
      cases ms with
      | nil => exact absurd rfl h'.1
      | cons m ms =>
        rw [treesOfMembers] at hm ⊢
        dsimp only
        rw [hm]
    simp only [treeOf, parseValue, hp]; rfl
  | .array vs, h => by
    have h' : sendableValues vs := by simpa [sendable] using h
    have hp : parseContent (.elem (lit "array") [] [.elem (lit "data") [] (treesOf vs)]) = some (.array vs) := by
      have hm := xr_parse_values vs h'
      rw [parseContent.eq_def]
      dsimp only
      rw [if_neg (by decide), if_neg (by decide), if_neg (by decide), if_neg (by decide), if_neg (by decide),
        if_neg (by decide), if_neg (by decide), if_neg (by decide), if_pos (by decide)]
      rw [hm]; rfl
    simp only [treeOf, parseValue, hp]; rfl

theorem xr_parse_members : ∀ ms, sendableMembers ms → parseMembers (treesOfMembers ms) = ms
  | [], _ => rfl
  | (name, v) :: ms, h => by
    have h' : sendableMember (name, v) ∧ sendableMembers ms := by simpa [sendableMembers] using h
    have h1 : plainText name ∧ sendable v := by simpa [sendableMember] using h'.1
    simp only [treesOfMembers, treeOfMember, parseMembers, xr_parse v h1.2, xr_parse_members ms h'.2, XNode.content]

theorem xr_parse_values : ∀ vs, sendableValues vs → parseValues (treesOf vs) = vs
  | [], _ => rfl
  | v :: vs, h => by
    have h' : sendable v ∧ sendableValues vs := by simpa [sendableValues] using h
    simp only [treesOf, parseValues, xr_parse v h'.1, xr_parse_values vs h'.2, Option.getD_some]
end

/-! ## Documents -/

theorem xr_doc {s : List Byte} {n : XNode} (h : Reads s ([n].map .node)) :
    readXml (lit "<?xml version=\"1.0\"?>" ++ s) = some n := by
  unfold readXml
  rw [xr_after_append]
  dsimp only
  have := h 1 [] [] [] rfl
  rw [List.append_nil, Nat.add_comm] at this
  rw [this]
  rfl

end Verif.Proof
