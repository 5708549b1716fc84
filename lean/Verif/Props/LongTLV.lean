import Verif.Props.TLV
/-! C112: sizes, offsets and searches with TLVs of more than 127 value bytes. -/
namespace Verif.Props
open Verif.Py Verif.Model Verif.Spec

/-! ### Specification -/

/-- The length octets of DER (X.690 10.1): the shortest form. -/
def DERLength (len : Nat) (ns : List Nat) : Prop :=
  (len ≤ 127 ∧ ns = [len]) ∨
  (127 < len ∧ ∃ ds, (∀ d ∈ ds, d < 256) ∧ ds.head? ≠ some 0 ∧ positional 256 ds = len ∧ ns = (128 + ds.length) :: ds)

/-- The cells `l` encode a TLV with a one-byte tag and 128 to 255 value bytes: tag byte, 0x81 (both signed or unsigned), the length as an unsigned cell, value. -/
def LongEncodes (n : Node) (l : List Int) : Prop :=
  n.cls < 4 ∧ n.num ≤ 30 ∧ 128 ≤ n.value.length ∧ n.value.length ≤ 255 ∧
  ∃ b lc, Spells b (leading n.cls n.constructed n.num) ∧ Spells lc 0x81 ∧ l = b :: lc :: (n.value.length : Int) :: n.value

/-- The cells `l` are encodings of the nodes, one after the other, each of at most 253 value bytes. -/
def Children : List Node → List Int → Prop
  | [], l => l = []
  | n :: ns, l => ∃ a b, l = a ++ b ∧ (Encodes n a ∨ (LongEncodes n a ∧ n.value.length ≤ 253)) ∧ Children ns b

/-- The value the code takes for that of the node: the node's own, or, above 127 bytes, the length octet followed by all but its last byte (C42). -/
def seenValue (n : Node) : List Int := if n.value.length ≤ 127 then n.value else (n.value.length : Int) :: n.value.dropLast

/-- What the accessors of a TLV object report of the node. -/
def Reports (t : BERTLV) (n : Node) : Prop :=
  t.constructed = n.constructed ∧ (∃ tag, t.tag = some tag ∧ IsTag tag n.cls n.constructed n.num) ∧ t.length = n.value.length ∧ t.value = some (seenValue n)

/-! ### Sizes -/

theorem lengthLen_der (len : Nat) (ns : List Nat) (h : DERLength len ns) :
    getLengthLen (len : Int) = (ns.length : Int) ↔ len ≤ 253 ∨ (256 ≤ len ∧ len ≤ 380) := by
  unfold getLengthLen
  rcases h with ⟨h, rfl⟩ | ⟨h, ds, hd, h0, hp, rfl⟩
  · rw [if_neg (by omega)]
    simp
    omega
  · rw [if_pos (by omega)]
    have hlt := BigNumber.positional_lt 256 ds hd
    rw [hp] at hlt
    cases ds with
    | nil => simp [positional] at hp; omega
    | cons d ds =>
      have hd0 : d ≠ 0 := by intro e; simp [e] at h0
      rw [BigNumber.positional_cons] at hp
      have hge : 256 ^ ds.length ≤ len := by
        rw [← hp]
        have : 1 * 256 ^ ds.length ≤ d * 256 ^ ds.length := Nat.mul_le_mul_right _ (by omega)
        omega
      rw [show ((128 + (d :: ds).length) :: d :: ds).length = ds.length + 2 by simp]
      rcases ds with _ | ⟨e, _ | ⟨f, ds⟩⟩
      · simp at hlt ⊢; omega
      · simp at hlt hge ⊢; omega
      · have big : ∀ k, 127 * (k + 4) < 256 ^ (k + 2) := by
          intro k
          induction k with
          | zero => decide
          | succ k ih => rw [show k + 1 + 2 = (k + 2) + 1 from rfl, Nat.pow_succ]; omega
        have := big ds.length
        simp only [List.length_cons] at hge ⊢
        rw [show ds.length + 1 + 1 = ds.length + 2 from rfl] at hge
        constructor
        · intro h; omega
        · intro h; omega

/-- C112. `size()` of a TLV is the length of its DER encoding exactly up to 253 value bytes and from 256 to 380. -/
theorem C112_size (t : BERTLV) (tag : BERTag) (ht : t.tag = some tag) (m : Nat) (hm : tag.size = m) (len : Nat) (hl : t.length = len) (ns : List Nat) (h : DERLength len ns) :
    t.size = .ok ((m + ns.length + len : Nat) : Int) ↔ len ≤ 253 ∨ (256 ≤ len ∧ len ≤ 380) := by
  rw [← lengthLen_der len ns h]
  simp only [BERTLV.size, ht, hm, hl, Except.ok.injEq]
  omega

/-- DER length octets exist for every length, here 254 and 300. -/
example : DERLength 254 [129, 254] ∧ DERLength 300 [130, 1, 44] := by
  refine ⟨.inr ⟨by decide, [254], ?_⟩, .inr ⟨by decide, [1, 44], ?_⟩⟩ <;> decide

/-! ### Reading -/

theorem getInstance_long (arr : List Int) (o : Nat) (n : Node) (enc rest : List Int) (hd : arr.drop o = enc ++ rest) (he : LongEncodes n enc) :
    BERTLV.getInstance arr o none = .ok ⟨n.constructed, some ⟨some (n.cls : Int), n.constructed, some (n.num : Int), 1⟩, (n.value.length : Int), some (seenValue n)⟩ ∧
      BERTLV.getLengthStatic arr o = .ok (2 + (n.value.length : Int)) := by
  obtain ⟨h1, h2, h3, h4, b, lc, hb, hlc, rfl⟩ := he
  have ht := BERTag.getInstance_decode arr o [b] (lc :: (n.value.length : Int) :: n.value ++ rest) [leading n.cls n.constructed n.num]
    n.cls n.num n.constructed (by rw [hd]; rfl) ⟨hb, trivial⟩ ⟨h1, .inl ⟨h2, rfl⟩⟩
  obtain ⟨g1, g2, g3⟩ := get_of_drop (i := o) hd
  have hl : getLengthField (arr.drop (o + 1)) = .ok (((1 : Nat) : Int), (n.value.length : Int)) := by
    rw [g2]
    have := lengthField_long lc [(n.value.length : Int)] (n.value ++ rest) 1 (by omega) hlc rfl
    simp only [List.cons_append, List.nil_append] at this
    rw [show (lc :: (n.value.length : Int) :: n.value).append rest = lc :: (n.value.length : Int) :: (n.value ++ rest) from rfl, this]
    simp [shl]
  obtain ⟨r1, r2⟩ := BERTLV.getInstance_of arr o 1 1 _ _ ht (by simp) hl
  refine ⟨?_, by rw [r2]; rfl⟩
  rw [r1]
  have hsl : slice arr ((o + 1 + 1 : Nat) : Int) (((o + 1 + 1 : Nat) : Int) + (n.value.length : Int)) = seenValue n := by
    rw [slice_add]
    have : arr.drop (o + 1 + 1) = (n.value.length : Int) :: n.value ++ rest := by
      rw [← List.drop_drop, g2]; rfl
    rw [this]
    unfold seenValue
    rw [if_neg (by omega)]
    have hlen : n.value.length = (n.value.length - 1) + 1 := by omega
    conv => lhs; rw [hlen]
    rw [List.cons_append, List.take_succ_cons, List.take_append_of_le_length (by omega), List.dropLast_eq_take, ← hlen]
  rw [hsl]
  simp

/-- C112. Reading a TLV of 128 to 255 value bytes (unsigned cells, one-byte tag): `getInstance` reports the right tag and length (and the shifted value of C42);
its size and the offset `getValueOffset` gives are right up to 253 value bytes and one too large for 254 and 255; the static `getLength` is one too small for all. -/
theorem C112_long (arr : List Int) (o : Nat) (n : Node) (enc rest : List Int) (hd : arr.drop o = enc ++ rest) (he : LongEncodes n enc) :
    (∃ t, BERTLV.getInstance arr o none = .ok t ∧ Reports t n ∧
      t.size = .ok ((enc.length : Int) + if n.value.length ≤ 253 then 0 else 1)) ∧
    BERTLV.getValueOffset arr o = .ok ((o : Int) + 3 + if n.value.length ≤ 253 then 0 else 1) ∧
    BERTLV.findStatic arr o none 0 0 = some (.ok ((o : Int) + 3 + if n.value.length ≤ 253 then 0 else 1)) ∧
    BERTLV.getLengthStatic arr o = .ok ((enc.length : Int) - 1) := by
  obtain ⟨h1, h2⟩ := getInstance_long arr o n enc rest hd he
  obtain ⟨c1, c2, c3, c4, b, lc, hb, hlc, henc⟩ := he
  have hel : enc.length = n.value.length + 3 := by rw [henc]; simp
  have hll : getLengthLen (n.value.length : Int) = 2 + if n.value.length ≤ 253 then 0 else 1 := by
    unfold getLengthLen
    rw [if_pos (by omega)]
    split <;> omega
  refine ⟨⟨_, h1, ⟨rfl, ⟨_, rfl, rfl, rfl, rfl⟩, rfl, rfl⟩, ?_⟩, ?_, ?_, ?_⟩
  · simp only [BERTLV.size, hll, hel]
    congr 1
    split <;> omega
  · unfold BERTLV.getValueOffset
    rw [h1]
    simp only [hll]
    congr 1
    split <;> omega
  · unfold BERTLV.findStatic
    rw [h1]
    simp only [hll]
    rw [if_pos (by omega)]
    congr 2
    split <;> omega
  · rw [h2, hel]
    congr 1
    omega

/-! ### Searching -/

theorem child_read (v : List Int) (o : Nat) (n : Node) (a b : List Int) (e : v.drop o = a ++ b) (h : Encodes n a ∨ (LongEncodes n a ∧ n.value.length ≤ 253)) :
    BERTLV.getInstance v o none = .ok ⟨n.constructed, some ⟨some (n.cls : Int), n.constructed, some (n.num : Int), 1⟩, (n.value.length : Int), some (seenValue n)⟩ ∧
      1 + getLengthLen (n.value.length : Int) + (n.value.length : Int) = a.length := by
  rcases h with h | ⟨h, hs⟩
  · have := (BERTLV.getInstance_node v o n a b e h).1
    have h3 := h.2.2.1
    have hl := BERTLV.encodes_length h
    have hll := BERTLV.lengthLen_short (n.value.length : Int) (by omega)
    unfold seenValue
    rw [if_pos h3, hll]
    exact ⟨this, by omega⟩
  · have := (getInstance_long v o n a b e h).1
    obtain ⟨_, _, _, _, _, _, _, _, rfl⟩ := h
    refine ⟨this, ?_⟩
    unfold getLengthLen
    rw [if_pos (by omega)]
    simp only [List.length_cons]
    omega

theorem find__children (t : BERTLV) (v : List Int) (hv : t.value = some v) (hlen : t.length = v.length) (w : BERTag) (cls num : Nat) (c : Bool)
    (hw : IsTag w cls c num) (nodes : List Node) (o : Nat) (ho : o ≤ v.length) (he : Children nodes (v.drop o)) (fuel : Nat) (hf : nodes.length < fuel) :
    match nodes.find? (HasTag cls num c) with
    | none => t.find_ (some w) o fuel = some (.ok (-1))
    | some n => ∃ (o' : Nat) (a b : List Int), t.find_ (some w) o fuel = some (.ok (o' : Int)) ∧ v.drop o' = a ++ b ∧ (Encodes n a ∨ (LongEncodes n a ∧ n.value.length ≤ 253)) := by
  induction nodes generalizing o fuel with
  | nil =>
    cases fuel with
    | zero => simp at hf
    | succ fuel =>
      have : v.drop o = [] := he
      have hl : (v.drop o).length = 0 := by rw [this]; rfl
      simp at hl
      simp only [List.find?_nil]
      unfold BERTLV.find_
      rw [if_neg (by omega)]
  | cons n nodes ih =>
    cases fuel with
    | zero => simp at hf
    | succ fuel =>
      obtain ⟨a, b, e, hen, hrest⟩ := he
      obtain ⟨hg, hsz⟩ := child_read v o n a b e hen
      have hvl := length_of_drop e ho
      simp only [List.length_append] at hvl
      have hll := BERTLV.lengthLen_pos (n.value.length : Int)
      have hstep : t.find_ (some w) o (fuel + 1) = if HasTag cls num c n = true then some (.ok (o : Int)) else t.find_ (some w) ((o + a.length : Nat) : Int) fuel := by
        rw [BERTLV.find_, if_pos (by omega), hv]
        simp only [Option.getD_some]
        rw [hg]
        simp only
        rw [BERTLV.eq_hasTag w cls num c hw.1 hw.2.1 hw.2.2 n, hasTag_eq]
        split
        · rfl
        · simp only [BERTLV.size, hsz]
          rw [Int.natCast_add]
      rw [hstep, List.find?_cons]
      cases hm : HasTag cls num c n with
      | true =>
        simp only [if_true]
        exact ⟨o, a, b, rfl, e, hen⟩
      | false =>
        simp only [Bool.false_eq_true, if_false]
        have hd : v.drop (o + a.length) = b := by rw [← List.drop_drop, e]; simp
        exact ih (o + a.length) (by omega) (by rw [hd]; exact hrest) fuel (by simp at hf; omega)

/-- C112. In a constructed TLV whose children have at most 253 value bytes each, `find(tag)` finishes and returns the first child with that tag, None when there is
none. -/
theorem C112_find (t : BERTLV) (hc : t.constructed = true) (v : List Int) (hv : t.value = some v) (hl : t.length = v.length) (nodes : List Node) (he : Children nodes v)
    (w : BERTag) (cls num : Nat) (c : Bool) (hw : IsTag w cls c num) (fuel : Nat) (hf : nodes.length < fuel) :
    match nodes.find? (HasTag cls num c) with
    | none => t.find (some w) fuel = some (.ok none)
    | some n => ∃ r, t.find (some w) fuel = some (.ok (some r)) ∧ Reports r n := by
  have := find__children t v hv hl w cls num c hw nodes 0 (by omega) (by simpa using he) fuel hf
  rw [show ((0 : Nat) : Int) = 0 from rfl] at this
  split at this
  · next h =>
    simp only [BERTLV.find, hc, not_true_eq_false, if_false]
    rw [this]
    simp
  · next n h =>
    obtain ⟨o', a, b, h1, h2, h3⟩ := this
    simp only [BERTLV.find, hc, not_true_eq_false, if_false]
    rw [h1]
    simp only
    rw [if_neg (by omega), hv, Option.getD_some, (child_read v o' n a b h2 h3).1]
    exact ⟨_, rfl, rfl, ⟨_, rfl, rfl, rfl, rfl⟩, rfl, rfl⟩

/-! ### Cases -/

/-- A long child before the one looked for. -/
def longNode (k : Nat) : Node := ⟨0, false, 4, List.replicate k 7⟩

theorem longNode_encodes (k : Nat) (h : 128 ≤ k) (h' : k ≤ 255) : LongEncodes (longNode k) (4 :: -127 :: (k : Int) :: List.replicate k 7) := by
  refine ⟨by simp [longNode], by simp [longNode], by simpa [longNode] using h, by simpa [longNode] using h', 4, -127, by simp [Spells, leading, longNode], by simp [Spells], by simp [longNode]⟩

/-- Two hundred bytes, then the child with tag 0x05: it is found. -/
example : ∃ v, Children [longNode 200, ⟨0, false, 5, [1]⟩] v ∧ [longNode 200, ⟨0, false, 5, [1]⟩].find? (HasTag 0 5 false) = some ⟨0, false, 5, [1]⟩ := by
  refine ⟨(4 :: -127 :: (200 : Int) :: List.replicate 200 7) ++ [5, 1, 1], ⟨_, _, rfl, .inr ⟨longNode_encodes 200 (by decide) (by decide), by rw [show (longNode 200).value.length = 200 from List.length_replicate]; decide⟩, ?_⟩, by decide +kernel⟩
  exact ⟨[5, 1, 1], [], rfl, .inl ⟨by decide, by decide, by decide, 5, by simp [Spells, leading], rfl⟩, rfl⟩

set_option maxRecDepth 20000 in
/-- With 254 bytes the search goes one byte too far and misses the child (it reads its length octet as a tag of number 1). -/
example : (BERTLV.mk true (some ⟨some 0, true, some 16, 1⟩) 260 (some ((4 :: -127 :: (254 : Int) :: List.replicate 254 7) ++ [5, 1, 0]))).find
    (some ⟨some 0, false, some 5, 1⟩) 9 = some (.ok none) := by decide +kernel

end Verif.Props
