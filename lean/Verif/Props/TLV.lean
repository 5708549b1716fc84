import Verif.Lemmas.TLV
import Verif.Props.Tag
/-! C40-C48: BER TLVs. -/
namespace Verif.Props
open Verif.Py Verif.Model Verif.Spec

/-- What the accessors of a TLV object report: tag, length, value, and a size of two more than the length. -/
def IsNode (t : BERTLV) (n : Node) : Prop :=
  t.constructed = n.constructed ∧ (∃ tag, t.tag = some tag ∧ IsTag tag n.cls n.constructed n.num) ∧
  t.length = n.value.length ∧ t.value = some n.value ∧ t.size = .ok (2 + (n.value.length : Int))

theorem isNode_ofNode (n : Node) (h : n.value.length ≤ 127) : IsNode (BERTLV.ofNode n) n :=
  ⟨rfl, ⟨_, rfl, rfl, rfl, rfl⟩, rfl, rfl, BERTLV.ofNode_size n h⟩

/-! ### C40 -/

/-- C40. Reading: at an encoded short TLV with a one-byte tag, `getInstance` returns a TLV with that tag, length and value,
whose size is the number of bytes of the encoding. -/
theorem C40_decode (arr : List Int) (o : Nat) (n : Node) (enc rest : List Int) (hd : arr.drop o = enc ++ rest) (he : Encodes n enc) :
    ∃ t, BERTLV.getInstance arr o none = .ok t ∧ IsNode t n ∧ t.size = .ok (enc.length : Int) := by
  refine ⟨_, (BERTLV.getInstance_node arr o n enc rest hd he).1, isNode_ofNode n he.2.2.1, ?_⟩
  rw [BERTLV.ofNode_size n he.2.2.1, BERTLV.encodes_length he]
  congr 1

/-- C40. Writing: a TLV with a one-byte tag and at most 127 value bytes is written as tag byte, length, value; the returned
length is their number, and only they change (up to the sign normalisation of the buffer, see C38). -/
theorem C40_encode (t : BERTLV) (tag : BERTag) (n : Node) (ht : t.tag = some tag) (hi : IsTag tag n.cls n.constructed n.num)
    (hv : t.value = some n.value) (hl : t.length = n.value.length) (hc : n.cls < 4) (hn : n.num ≤ 30) (h127 : n.value.length ≤ 127)
    (buf : List Int) (o : Nat) (hr : o + 2 + n.value.length ≤ buf.length) :
    ∃ base buf' enc, t.toBytes buf o = (.ok (2 + (n.value.length : Int)), buf') ∧ Encodes n enc ∧ SignNormalised buf base ∧
      Written base buf' o enc := by
  have ho : BERTag.octets n.cls n.constructed n.num = [leading n.cls n.constructed n.num] := by
    unfold BERTag.octets; rw [if_pos hn]
  have hlt := BERTag.tagOctets_lt (BERTag.canonical_octets (BERTag.octets_canonical n.cls n.constructed n.num hc))
  rw [ho] at hlt
  have e := BERTLV.toBytes_short t tag n.cls n.num n.constructed ht hi.1 hi.2.1 hi.2.2 n.value hv hl h127 buf o (by rw [ho]; simp; omega)
  rw [ho] at e
  refine ⟨buf.map BERTag.norm, splice (buf.map BERTag.norm) o (BERTag.norm (leading n.cls n.constructed n.num) :: (n.value.length : Int) :: n.value), BERTag.norm (leading n.cls n.constructed n.num) :: (n.value.length : Int) :: n.value, ?_, ?_, signNormalised_norm buf, ?_⟩
  rotate_left
  · exact ⟨hc, hn, h127, _, (BERTag.norm_spells _ (hlt _ List.mem_cons_self)).1, rfl⟩
  · exact written_splice _ _ _ (by simp; omega)
  · rw [e]
    simp only [List.map_cons, List.map_nil, List.cons_append, List.nil_append]
    congr 2

/-- C40. Round trip: what `toBytes` wrote is read back by `getInstance` as a TLV with the same tag, length and value. -/
theorem C40_roundtrip (t : BERTLV) (tag : BERTag) (n : Node) (ht : t.tag = some tag) (hi : IsTag tag n.cls n.constructed n.num)
    (hv : t.value = some n.value) (hl : t.length = n.value.length) (hc : n.cls < 4) (hn : n.num ≤ 30) (h127 : n.value.length ≤ 127)
    (buf : List Int) (o : Nat) (hr : o + 2 + n.value.length ≤ buf.length) :
    ∃ buf' t', t.toBytes buf o = (.ok (2 + (n.value.length : Int)), buf') ∧ BERTLV.getInstance buf' o none = .ok t' ∧ IsNode t' n := by
  obtain ⟨base, buf', enc, e, he, _, hw⟩ := C40_encode t tag n ht hi hv hl hc hn h127 buf o hr
  have hd : buf'.drop o = enc ++ buf'.drop (o + enc.length) := by
    have hle := hw.1
    rw [written_iff hle] at hw
    have : range buf' o enc.length = enc := by
      subst hw
      unfold range splice
      rw [List.append_assoc, List.drop_append]
      have : (List.take o base).length = o := by simp; omega
      rw [this]
      simp
    unfold range at this
    rw [← List.drop_drop]
    conv => lhs; rw [← List.take_append_drop enc.length (List.drop o buf')]
    rw [this]
  obtain ⟨t', h1, h2, _⟩ := C40_decode buf' o n enc _ hd he
  exact ⟨buf', t', e, h1, h2⟩

example : (BERTLV.mk false (some ⟨some 2, false, some 5, 1⟩) 2 (some [7, -8])).toBytes [0, 0, 0, 0, 99] 0 = (.ok 4, [-123, 2, 7, -8, 99]) ∧
    BERTLV.getInstance [-123, 2, 7, -8, 99] 0 none = .ok ⟨false, some ⟨some 2, false, some 5, 1⟩, 2, some [7, -8]⟩ := ⟨rfl, rfl⟩

/-- C40. `size()` of a TLV about to be written is the number of bytes written exactly when its tag object's own size is 1;
for a tag made from class and number (size 0, C37) it is one too small. -/
theorem C40_size (t : BERTLV) (tag : BERTag) (ht : t.tag = some tag) (k : Nat) (hk : k ≤ 127) (hl : t.length = k) :
    t.size = .ok (2 + (k : Int)) ↔ tag.size = 1 := by
  have := BERTLV.lengthLen_short (k : Int) (by omega)
  simp only [BERTLV.size, ht, hl, this, Except.ok.injEq]
  omega

/-! ### C41 -/

/-- C41. A TLV of more than 127 bytes can never be written: `toBytes` always raises. -/
theorem C41_never (t : BERTLV) (h : 127 < t.length) (buf : List Int) (o : Int) : ∃ e, (t.toBytes buf o).1 = .error e := by
  unfold BERTLV.toBytes
  cases t.tag with
  | none => exact ⟨_, rfl⟩
  | some tag =>
    simp only
    generalize tag.toBytes buf o = r
    obtain ⟨r1, r2⟩ := r
    cases r1 with
    | error e => exact ⟨e, rfl⟩
    | ok k => simp only; rw [if_pos h]; exact ⟨_, rfl⟩

/-- C41. If the tag fits, the exception is Python's NameError; the tag has been written by then. -/
theorem C41_name_error (t : BERTLV) (tag : BERTag) (ht : t.tag = some tag) (h : 127 < t.length) (buf buf' : List Int) (o k : Int)
    (hw : tag.toBytes buf o = (.ok k, buf')) : t.toBytes buf o = (.error .nameError, buf') := by
  simp only [BERTLV.toBytes, ht, hw]
  rw [if_pos h]

set_option maxRecDepth 8000 in
example : (BERTLV.mk false (some ⟨some 0, false, some 4, 1⟩) 128 (some (List.replicate 128 0))).toBytes (List.replicate 200 0) 0 =
    (.error .nameError, 4 :: List.replicate 199 0) :=
  C41_name_error _ _ rfl (by decide) _ _ 0 1 (by rfl)

/-! ### C42 -/

theorem lengthField_long (lc : Int) (cells rest : List Int) (k : Nat) (hk : k < 128) (hlc : Spells lc (128 + k)) (hc : cells.length = k) :
    getLengthField (lc :: (cells ++ rest)) = .ok ((k : Int), cells.reverse.foldl (fun value i => shl value 8 + i) 0) := by
  unfold getLengthField
  have hg : Verif.Py.get (lc :: (cells ++ rest)) 0 = .ok lc := by
    have := get_natCast (lc :: (cells ++ rest)) 0 (by simp)
    simpa using this
  rw [hg]
  simp only
  have h7 : iand lc 0x7f = (k : Int) := by rw [iand_7f]; unfold Spells at hlc; omega
  rw [if_pos (by rw [iand_80]; unfold Spells at hlc; omega), h7]
  have : slice (lc :: (cells ++ rest)) 1 ((k : Int) + 1) = cells := by
    have e := slice_natCast (lc :: (cells ++ rest)) 1 (k + 1)
    rw [show ((1 : Nat) : Int) = 1 from rfl, show ((k + 1 : Nat) : Int) = (k : Int) + 1 by omega] at e
    rw [e]
    simp [← hc]
  rw [this]

theorem fold_unsigned (ds : List Nat) (acc : Nat) :
    (ds.map fun d : Nat => (d : Int)).foldl (fun value i => shl value 8 + i) (acc : Int) = ((ds.foldl (fun a d => a * 256 + d) acc : Nat) : Int) := by
  induction ds generalizing acc with
  | nil => rfl
  | cons d ds ih =>
    rw [List.map_cons, List.foldl_cons, List.foldl_cons]
    have : shl (acc : Int) 8 + (d : Int) = ((acc * 256 + d : Nat) : Int) := by unfold shl; omega
    rw [this, ih]

/-- C42. A one-byte tag followed by a BER long-form length `0x80 + k, ds` (cells unsigned): the code takes as length the
number `ds` read backwards, and as value the cells from the last length octet on - one cell early. -/
theorem C42_misread (arr : List Int) (o : Nat) (b lc : Int) (cls num : Nat) (c : Bool) (ds : List Nat) (rest : List Int)
    (hc : cls < 4) (hn : num ≤ 30) (hb : Spells b (leading cls c num)) (hk : ds.length < 128) (hlc : Spells lc (128 + ds.length))
    (hd : arr.drop o = b :: lc :: ((ds.map fun d : Nat => (d : Int)) ++ rest)) :
    ∃ t tag, BERTLV.getInstance arr o none = .ok t ∧ t.tag = some tag ∧ IsTag tag cls c num ∧
      t.length = positional 256 ds.reverse ∧ t.value = some (range arr (o + 1 + ds.length) (positional 256 ds.reverse)) := by
  have ht := BERTag.getInstance_decode arr o [b] _ [leading cls c num] cls num c (by rw [hd]; rfl) ⟨hb, trivial⟩ ⟨hc, .inl ⟨hn, rfl⟩⟩
  obtain ⟨g1, g2, g3⟩ := get_of_drop hd
  have hl : getLengthField (arr.drop (o + 1)) = .ok ((ds.length : Int), ((positional 256 ds.reverse : Nat) : Int)) := by
    rw [g2, lengthField_long lc _ rest ds.length hk hlc (by simp)]
    have := fold_unsigned ds.reverse 0
    rw [show ((0 : Nat) : Int) = 0 from rfl, List.map_reverse] at this
    rw [this]
    rfl
  obtain ⟨r1, _⟩ := BERTLV.getInstance_of arr o 1 ds.length _ _ ht (by simp) hl
  refine ⟨_, _, r1, rfl, ⟨rfl, rfl, rfl⟩, rfl, ?_⟩
  simp only
  rw [slice_add]
  rfl

/-- C42. The length so read is the right one exactly when the length octets are a palindrome. -/
theorem C42_right_length_iff (ds : List Nat) (hd : ∀ d ∈ ds, d < 256) : positional 256 ds.reverse = positional 256 ds ↔ ds.reverse = ds := by
  constructor
  · intro h
    exact BigNumber.positional_inj 256 _ _ (fun d hm => hd d (List.mem_reverse.1 hm)) hd (by simp) h
  · intro h; rw [h]

/-- C42. Even then (length at least 1, value present) the value is wrong: it is the last length octet followed by the
true value without its last cell. -/
theorem C42_value_shifted (arr : List Int) (o : Nat) (b lc : Int) (cls num : Nat) (c : Bool) (ds : List Nat) (v rest : List Int)
    (hc : cls < 4) (hn : num ≤ 30) (hb : Spells b (leading cls c num)) (hk : ds.length < 128) (hlc : Spells lc (128 + ds.length))
    (hd : arr.drop o = b :: lc :: ((ds.map fun d : Nat => (d : Int)) ++ (v ++ rest)))
    (hp : ds.reverse = ds) (hv : v.length = positional 256 ds) (hv0 : v ≠ []) :
    ∃ t last, BERTLV.getInstance arr o none = .ok t ∧ ds.getLast? = some last ∧ t.length = v.length ∧ t.value = some ((last : Int) :: v.dropLast) := by
  obtain ⟨t, tag, h1, _, _, h4, h5⟩ := C42_misread arr o b lc cls num c ds (v ++ rest) hc hn hb hk hlc hd
  rw [hp] at h4 h5
  rw [← hv] at h4 h5
  have hne : ds ≠ [] := by
    rintro rfl
    simp [positional] at hv
    exact hv0 hv
  refine ⟨t, ds.getLast hne, h1, List.getLast?_eq_some_getLast hne, h4, ?_⟩
  rw [h5]
  congr 1
  unfold range
  have e1 : arr.drop (o + 1 + ds.length) = (ds.getLast hne : Int) :: (v ++ rest) := by
    have e2 : o + 1 + ds.length = o + (1 + ds.length) := by omega
    rw [e2, ← List.drop_drop, hd]
    have e3 : ds = ds.dropLast ++ [ds.getLast hne] := (List.dropLast_concat_getLast hne).symm
    have e4 : 1 + ds.length = (b :: lc :: (ds.dropLast.map fun d : Nat => (d : Int))).length := by
      have := List.length_pos_iff.2 hne
      simp; omega
    rw [e4]
    conv => lhs; rw [e3]
    simp only [List.map_append, List.map_cons, List.map_nil, List.append_assoc, List.cons_append, List.nil_append]
    rw [← List.cons_append, ← List.cons_append, List.drop_left']
    simp
  rw [e1]
  have hlen : v.length = (v.length - 1) + 1 := by have := List.length_pos_iff.2 hv0; omega
  rw [hlen, List.take_succ_cons, List.take_append_of_le_length (by omega), List.dropLast_eq_take]

/-- C42. With signed bytes - what a Java Card array holds - a length of 128..255 comes out negative. -/
theorem C42_signed_negative (arr : List Int) (o : Nat) (b lc : Int) (cls num len : Nat) (c : Bool) (rest : List Int)
    (hc : cls < 4) (hn : num ≤ 30) (hb : Spells b (leading cls c num)) (hlc : Spells lc 0x81) (hl1 : 128 ≤ len) (hl2 : len ≤ 255)
    (hd : arr.drop o = b :: lc :: ((len : Int) - 256) :: rest) :
    ∃ t, BERTLV.getInstance arr o none = .ok t ∧ t.length = (len : Int) - 256 ∧ t.length < 0 := by
  have ht := BERTag.getInstance_decode arr o [b] _ [leading cls c num] cls num c (by rw [hd]; rfl) ⟨hb, trivial⟩ ⟨hc, .inl ⟨hn, rfl⟩⟩
  obtain ⟨g1, g2, g3⟩ := get_of_drop hd
  have hl : getLengthField (arr.drop (o + 1)) = .ok (((1 : Nat) : Int), (len : Int) - 256) := by
    rw [g2]
    have := lengthField_long lc [(len : Int) - 256] rest 1 (by omega) hlc rfl
    simp only [List.cons_append, List.nil_append] at this
    rw [this]
    simp [shl]
  obtain ⟨r1, _⟩ := BERTLV.getInstance_of arr o 1 1 _ _ ht (by simp) hl
  exact ⟨_, r1, rfl, by simp only; omega⟩

example : (BERTLV.getInstance [0x04, 0x82, 0x01, 0x00, 7, 7, 7] 0 none).map (fun t => (t.length, t.value)) = .ok (1, some [0]) := by rfl
example : (BERTLV.getInstance [0x04, -127, -56, 7, 7] 0 none).map (fun t => t.length) = .ok (-56) := by rfl

/-! ### C43 -/

/-- The node has the given tag. -/
def HasTag (cls num : Nat) (c : Bool) (n : Node) : Bool := n.cls == cls && n.constructed == c && n.num == num

theorem hasTag_eq (cls num : Nat) (c : Bool) (n : Node) : BERTLV.hasTag cls num c n = HasTag cls num c n := by
  unfold BERTLV.hasTag HasTag
  rw [Bool.eq_iff_iff]
  simp [and_assoc]

theorem node_at {v : List Int} {o : Nat} {n : Node} {post : List Node} (h : EncodesAll (n :: post) (v.drop o)) :
    BERTLV.getInstance v o none = .ok (BERTLV.ofNode n) ∧ n.value.length ≤ 127 := by
  obtain ⟨a, b, e, he, _⟩ := h
  exact ⟨(BERTLV.getInstance_node v o n a b e he).1, he.2.2.1⟩

/-- C43. In a TLV whose value is a sequence of encoded children, `find(tag)` finishes and returns the first child with that
tag, None when there is none. -/
theorem C43_find (t : BERTLV) (hc : t.constructed = true) (v : List Int) (hv : t.value = some v) (hl : t.length = v.length) (nodes : List Node) (he : EncodesAll nodes v)
    (w : BERTag) (cls num : Nat) (c : Bool) (hw : IsTag w cls c num) (fuel : Nat) (hf : nodes.length < fuel) :
    match nodes.find? (HasTag cls num c) with
    | none => t.find (some w) fuel = some (.ok none)
    | some n => ∃ r, t.find (some w) fuel = some (.ok (some r)) ∧ IsNode r n := by
  have he' : EncodesAll nodes (v.drop 0) := by simpa using he
  rcases BERTLV.find__spec t v hv hl w cls num c hw.1 hw.2.1 hw.2.2 nodes 0 (by omega) he' fuel hf with ⟨h1, h2⟩ | ⟨pre, n, post, o', h1, h2, h3, h4, h5, h6⟩
  · have : nodes.find? (HasTag cls num c) = none := by
      rw [List.find?_eq_none]
      intro x hx
      rw [← hasTag_eq, h2 x hx]
      simp
    rw [this]
    simp only [BERTLV.find, hc, not_true_eq_false, if_false]
    rw [show ((0 : Nat) : Int) = 0 from rfl] at h1
    rw [h1]
    simp
  · have : nodes.find? (HasTag cls num c) = some n := by
      rw [List.find?_eq_some_iff_append]
      refine ⟨by rw [← hasTag_eq]; exact h4, pre, post, h2, ?_⟩
      intro x hx
      rw [← hasTag_eq, h3 x hx]
      rfl
    rw [this]
    simp only [BERTLV.find, hc, not_true_eq_false, if_false]
    rw [show ((0 : Nat) : Int) = 0 from rfl] at h1
    rw [h1]
    simp only
    rw [if_neg (by omega), hv]
    obtain ⟨k1, k2⟩ := node_at h6
    rw [Option.getD_some, k1]
    exact ⟨_, rfl, isNode_ofNode n k2⟩

/-- C43. `find(None)` returns the first child, None when there is none. -/
theorem C43_find_none (t : BERTLV) (hc : t.constructed = true) (v : List Int) (hv : t.value = some v) (hl : t.length = v.length) (nodes : List Node)
    (he : EncodesAll nodes v) (fuel : Nat) :
    match nodes with
    | [] => t.find none fuel = some (.ok none)
    | n :: _ => ∃ r, t.find none fuel = some (.ok (some r)) ∧ IsNode r n := by
  cases nodes with
  | nil =>
    have hv0 : v = [] := he
    subst hv0
    simp only [BERTLV.find, hc, not_true_eq_false, if_false]
    rw [if_neg (by rw [hl]; simp)]
  | cons n post =>
    obtain ⟨k1, k2⟩ := node_at (v := v) (o := 0) (by simpa using he)
    have hpos : 0 < v.length := by
      obtain ⟨a, b, rfl, hen, _⟩ := he
      have := BERTLV.encodes_length hen
      simp; omega
    simp only [BERTLV.find, hc, not_true_eq_false, if_false]
    rw [if_pos (by omega), hv, Option.getD_some]
    rw [show ((0 : Nat) : Int) = 0 from rfl] at k1
    rw [k1]
    exact ⟨_, rfl, isNode_ofNode n k2⟩

/-- C43, C44. A primitive TLV cannot be searched: both calls raise AttributeError. -/
theorem C43_primitive (t : BERTLV) (hc : t.constructed = false) (tag : Option BERTag) (aTLV : BERTLV) (occ : Int) (fuel : Nat) :
    t.find tag fuel = some (.error .attributeError) ∧ t.findNext tag aTLV occ fuel = some (.error .attributeError) := by
  unfold BERTLV.find BERTLV.findNext
  simp [hc]

/-- A constructed TLV with three children, two of them with the same tag. -/
example : EncodesAll [⟨0, false, 4, [1]⟩, ⟨2, false, 1, []⟩, ⟨0, false, 4, [9, 9]⟩] [4, 1, 1, -127, 0, 4, 2, 9, 9] :=
  ⟨[4, 1, 1], [-127, 0, 4, 2, 9, 9], rfl, ⟨by decide, by decide, by decide, 4, by simp [Spells, leading], rfl⟩,
   [-127, 0], [4, 2, 9, 9], rfl, ⟨by decide, by decide, by decide, -127, by simp [Spells, leading], rfl⟩,
   [4, 2, 9, 9], [], rfl, ⟨by decide, by decide, by decide, 4, by simp [Spells, leading], rfl⟩, rfl⟩

/-! ### C44 -/

/-- What follows the `k`-th element satisfying `p`; `none` when there are fewer than `k`. -/
def afterNth {α} (p : α → Bool) : Nat → List α → Option (List α)
  | 0, l => some l
  | _ + 1, [] => none
  | k + 1, x :: l => if p x then afterNth p k l else afterNth p (k + 1) l

theorem afterNth_skip {α} (p : α → Bool) (k : Nat) (pre l : List α) (h : ∀ x ∈ pre, p x = false) :
    afterNth p (k + 1) (pre ++ l) = afterNth p (k + 1) l := by
  induction pre with
  | nil => rfl
  | cons x pre ih =>
    rw [List.cons_append, afterNth, h x List.mem_cons_self]
    simp only [Bool.false_eq_true, if_false]
    exact ih fun y hy => h y (List.mem_cons_of_mem _ hy)

theorem afterNth_none {α} (p : α → Bool) (k : Nat) (l : List α) (h : ∀ x ∈ l, p x = false) : afterNth p (k + 1) l = none := by
  have := afterNth_skip p k l [] h
  rw [List.append_nil] at this
  rw [this]; rfl

theorem afterNth_length {α} (p : α → Bool) (k : Nat) (l r : List α) (h : afterNth p k l = some r) : r.length ≤ l.length := by
  induction l generalizing k with
  | nil =>
    cases k with
    | zero => injection h with h; subst h; exact Nat.le_refl _
    | succ k => cases h
  | cons x l ih =>
    cases k with
    | zero => injection h with h; subst h; exact Nat.le_refl _
    | succ k =>
      rw [afterNth] at h
      split at h
      · have := ih k h; simp; omega
      · have := ih (k + 1) h; simp; omega

/-- The node is an occurrence of the given TLV: same tag, same value. -/
def SameTLV (cls num : Nat) (c : Bool) (val : List Int) (n : Node) : Bool := HasTag cls num c n && n.value == val

theorem skipLoop_spec (t : BERTLV) (v : List Int) (hv : t.value = some v) (hl : t.length = v.length) (w : BERTag) (cls num : Nat) (c : Bool)
    (hw : IsTag w cls c num) (val : List Int) (occ i : Int) (ff : Nat) (nodes : List Node) (hff : nodes.length < ff) (o : Nat) (ho : o ≤ v.length)
    (he : EncodesAll nodes (v.drop o)) (fuel : Nat) (hf : nodes.length < fuel) :
    match afterNth (SameTLV cls num c val) (occ - i).toNat nodes with
    | none => t.skipLoop (some w) (some val) occ i o ff fuel = some (.ok none)
    | some rest => ∃ o' : Nat, t.skipLoop (some w) (some val) occ i o ff fuel = some (.ok (some (o' : Int))) ∧ o' ≤ v.length ∧ EncodesAll rest (v.drop o') := by
  induction fuel generalizing i o nodes with
  | zero => omega
  | succ fuel ih =>
    unfold BERTLV.skipLoop
    by_cases hi : i < occ
    · rw [if_pos hi]
      obtain ⟨k, hk⟩ : ∃ k, (occ - i).toNat = k + 1 := ⟨(occ - i).toNat - 1, by omega⟩
      rw [hk]
      rcases BERTLV.find__spec t v hv hl w cls num c hw.1 hw.2.1 hw.2.2 nodes o ho he ff hff with ⟨h1, h2⟩ | ⟨pre, n, post, o1, h1, h2, h3, h4, h5, h6⟩
      · rw [afterNth_none _ _ _ (by intro x hx; unfold SameTLV; rw [← hasTag_eq, h2 x hx]; rfl), h1]
        simp
      · rw [h2, afterNth_skip _ _ _ _ (by intro x hx; unfold SameTLV; rw [← hasTag_eq, h3 x hx]; rfl), h1]
        obtain ⟨k1, k2⟩ := node_at h6
        simp only
        rw [if_neg (show ¬ (o1 : Int) = -1 by omega), hv, Option.getD_some, k1]
        simp only
        rw [BERTLV.ofNode_size n k2]
        simp only
        obtain ⟨a, b, e, hen, hpost⟩ := h6
        have hal := BERTLV.encodes_length hen
        have hvl := length_of_drop e h5
        simp only [List.length_append] at hvl
        have hd : v.drop (o1 + (2 + n.value.length)) = b := by rw [← List.drop_drop, e, ← hal]; simp
        have ee : (o1 : Int) + (2 + (n.value.length : Int)) = ((o1 + (2 + n.value.length) : Nat) : Int) := by omega
        have hlen : post.length + 1 ≤ nodes.length := by rw [h2]; simp
        have hsame : SameTLV cls num c val n = (n.value == val) := by unfold SameTLV; rw [← hasTag_eq, h4]; rfl
        have hcond : ((BERTLV.ofNode n).value = some val) ↔ n.value = val := by simp [BERTLV.ofNode]
        rw [afterNth, hsame, ee]
        by_cases hval : n.value = val
        · have e1 : (n.value == val) = true := by simp [hval]
          rw [e1, if_pos rfl, if_pos (hcond.2 hval)]
          have hk2 : k = (occ - (i + 1)).toNat := by omega
          rw [hk2]
          exact ih (i + 1) post (by omega) (o1 + (2 + n.value.length)) (by omega) (by rw [hd]; exact hpost) (by omega)
        · have e1 : (n.value == val) = false := by simp [hval]
          rw [e1, if_neg (by simp), if_neg (fun h => hval (hcond.1 h)), ← hk]
          exact ih i post (by omega) (o1 + (2 + n.value.length)) (by omega) (by rw [hd]; exact hpost) (by omega)
    · rw [if_neg hi]
      have : (occ - i).toNat = 0 := by omega
      rw [this, afterNth]
      exact ⟨o, rfl, ho, he⟩

/-- C44. `findNext(tag, aTLV, n)` returns the first child with the tag after the `n`-th child equal to aTLV (same tag and
value); None if there are fewer than `n` such children or no child with the tag follows. -/
theorem C44_findNext (t : BERTLV) (hc : t.constructed = true) (v : List Int) (hv : t.value = some v) (hl : t.length = v.length) (nodes : List Node) (he : EncodesAll nodes v)
    (w : BERTag) (cls num : Nat) (c : Bool) (hw : IsTag w cls c num) (aTLV : BERTLV) (a : Node) (ha : ∃ tag, aTLV.tag = some tag ∧ IsTag tag a.cls a.constructed a.num)
    (hav : aTLV.value = some a.value) (occ : Int) (fuel : Nat) (hf : nodes.length < fuel) :
    match afterNth (fun n => n == a) occ.toNat nodes with
    | none => t.findNext (some w) aTLV occ fuel = some (.ok none)
    | some rest =>
      match rest.find? (HasTag cls num c) with
      | none => t.findNext (some w) aTLV occ fuel = some (.ok none)
      | some n => ∃ r, t.findNext (some w) aTLV occ fuel = some (.ok (some r)) ∧ IsNode r n := by
  obtain ⟨tag, hat, hit⟩ := ha
  have heq : (fun n => n == a) = SameTLV a.cls a.num a.constructed a.value := by
    funext n
    unfold SameTLV HasTag
    rw [Bool.eq_iff_iff]
    obtain ⟨n1, n2, n3, n4⟩ := n
    obtain ⟨a1, a2, a3, a4⟩ := a
    simp [and_assoc]
  rw [heq]
  have hs := skipLoop_spec t v hv hl tag a.cls a.num a.constructed hit a.value occ 0 fuel nodes hf 0 (by omega) (by simpa using he) fuel hf
  rw [show occ - 0 = occ by omega, show ((0 : Nat) : Int) = 0 from rfl] at hs
  unfold BERTLV.findNext
  rw [if_neg (show ¬ ¬ t.constructed = true by simp [hc])]
  rw [hat, hav]
  cases hr : afterNth (SameTLV a.cls a.num a.constructed a.value) occ.toNat nodes with
  | none =>
    rw [hr] at hs
    simp only at hs ⊢
    rw [hs]
  | some rest =>
    rw [hr] at hs
    obtain ⟨o', h1, h2, h3⟩ := hs
    simp only
    rw [h1]
    simp only
    have hrl := afterNth_length _ _ _ _ hr
    rcases BERTLV.find__spec t v hv hl w cls num c hw.1 hw.2.1 hw.2.2 rest o' h2 h3 fuel (by omega) with ⟨k1, k2⟩ | ⟨pre, n, post, o2, k1, k2, k3, k4, k5, k6⟩
    · have : rest.find? (HasTag cls num c) = none := by
        rw [List.find?_eq_none]
        intro x hx
        rw [← hasTag_eq, k2 x hx]
        simp
      rw [this, k1]
      simp
    · have : rest.find? (HasTag cls num c) = some n := by
        rw [List.find?_eq_some_iff_append]
        refine ⟨by rw [← hasTag_eq]; exact k4, pre, post, k2, ?_⟩
        intro x hx
        rw [← hasTag_eq, k3 x hx]
        rfl
      rw [this, k1]
      simp only
      rw [if_neg (show ¬ (o2 : Int) = -1 by omega), hv, Option.getD_some]
      obtain ⟨q1, q2⟩ := node_at k6
      rw [q1]
      exact ⟨_, rfl, isNode_ofNode n q2⟩

/-- C44. `findNext(None, aTLV, n)` returns the child right after the `n`-th occurrence; None if there are fewer than `n`; but
when that occurrence is the last child it raises ArrayIndexOutOfBoundsException instead of returning None. -/
theorem C44_findNext_none (t : BERTLV) (hc : t.constructed = true) (v : List Int) (hv : t.value = some v) (hl : t.length = v.length) (nodes : List Node) (he : EncodesAll nodes v)
    (aTLV : BERTLV) (a : Node) (ha : ∃ tag, aTLV.tag = some tag ∧ IsTag tag a.cls a.constructed a.num)
    (hav : aTLV.value = some a.value) (occ : Int) (fuel : Nat) (hf : nodes.length < fuel) :
    match afterNth (fun n => n == a) occ.toNat nodes with
    | none => t.findNext none aTLV occ fuel = some (.ok none)
    | some [] => t.findNext none aTLV occ fuel = some (.error .arrayIndexOutOfBounds)
    | some (n :: _) => ∃ r, t.findNext none aTLV occ fuel = some (.ok (some r)) ∧ IsNode r n := by
  obtain ⟨tag, hat, hit⟩ := ha
  have heq : (fun n => n == a) = SameTLV a.cls a.num a.constructed a.value := by
    funext n
    unfold SameTLV HasTag
    rw [Bool.eq_iff_iff]
    obtain ⟨n1, n2, n3, n4⟩ := n
    obtain ⟨a1, a2, a3, a4⟩ := a
    simp [and_assoc]
  rw [heq]
  have hs := skipLoop_spec t v hv hl tag a.cls a.num a.constructed hit a.value occ 0 fuel nodes hf 0 (by omega) (by simpa using he) fuel hf
  rw [show occ - 0 = occ by omega, show ((0 : Nat) : Int) = 0 from rfl] at hs
  unfold BERTLV.findNext
  rw [if_neg (show ¬ ¬ t.constructed = true by simp [hc])]
  rw [hat, hav]
  cases hr : afterNth (SameTLV a.cls a.num a.constructed a.value) occ.toNat nodes with
  | none =>
    rw [hr] at hs
    simp only at hs ⊢
    rw [hs]
  | some rest =>
    rw [hr] at hs
    obtain ⟨o', h1, h2, h3⟩ := hs
    cases rest with
    | nil =>
      have hz : v.drop o' = [] := h3
      have hlen := length_of_drop hz h2
      simp only
      rw [h1]
      simp only
      rw [hv]
      simp only
      have hb : BERTag.getInstance v (o' : Int) = .error .arrayIndexOutOfBounds := by
        unfold BERTag.getInstance
        rw [get_natCast_out _ _ (by simp at hlen; omega)]
        rfl
      have : BERTLV.getInstance v (o' : Int) none = .error .arrayIndexOutOfBounds := by
        unfold BERTLV.getInstance BERTLV.getLengthStatic
        simp only [bind, Except.bind, hb]
      rw [this]
      rfl
    | cons n post =>
      simp only
      rw [h1]
      simp only
      rw [hv]
      simp only
      obtain ⟨q1, q2⟩ := node_at h3
      rw [q1]
      exact ⟨_, rfl, isNode_ofNode n q2⟩

example : afterNth (fun n : Node => n == ⟨0, false, 4, [1]⟩) 1 [⟨0, false, 4, [1]⟩, ⟨2, false, 1, []⟩] = some [⟨2, false, 1, []⟩] := by rfl

/-! ### C45 -/

/-- C45. On a TLV whose value cells are non-negative (unsigned bytes), `find` and `findNext` finish, whatever the bytes and
whatever is searched for. -/
theorem C45_terminates (t : BERTLV) (h : ∀ v, t.value = some v → ∀ x ∈ v, 0 ≤ x) :
    ∃ N, ∀ fuel, N ≤ fuel → ∀ tag, t.find tag fuel ≠ none ∧ ∀ aTLV occ, t.findNext tag aTLV occ fuel ≠ none := by
  have h' : ∀ x ∈ t.value.getD [], 0 ≤ x := by
    cases hv : t.value with
    | none => simp
    | some v => exact h v hv
  refine ⟨t.length.toNat + 2, ?_⟩
  intro fuel hf tag
  constructor
  · unfold BERTLV.find
    by_cases hc : t.constructed = true
    case neg => rw [if_pos hc]; simp
    rw [if_neg (show ¬ ¬ t.constructed = true by simp [hc])]
    cases tag with
    | none => simp only; split <;> simp
    | some w =>
      obtain ⟨r, hr, _⟩ := BERTLV.find__total t h' (some w) 0 (by omega) fuel (by omega) (by omega)
      simp only [hr]
      cases r with
      | error e => simp
      | ok o => simp only; split <;> simp
  · intro aTLV occ
    unfold BERTLV.findNext
    by_cases hc : t.constructed = true
    case neg => rw [if_pos hc]; simp
    rw [if_neg (show ¬ ¬ t.constructed = true by simp [hc])]
    obtain ⟨r, hr, hr2⟩ := BERTLV.skipLoop_total t h' aTLV.tag aTLV.value occ 0 0 (by omega) fuel (by omega) (by omega) fuel (by omega) (by omega)
    rw [hr]
    cases r with
    | error e => simp
    | ok o =>
      cases o with
      | none => simp
      | some o =>
        cases tag with
        | none => simp only; split <;> simp
        | some w =>
          have := hr2 o rfl
          obtain ⟨r, hr, _⟩ := BERTLV.find__total t h' (some w) o (by omega) fuel (by omega) (by omega)
          simp only [hr]
          cases r with
          | error e => simp
          | ok o => simp only; split <;> simp

/-- C45, refuted for signed bytes: the constructed TLV read from the five bytes 30 03 04 81 FE makes `find` loop forever
for every tag other than the one of its (malformed) child. -/
theorem C45_loops_forever (w : BERTag) (cls num : Nat) (c : Bool) (hw : IsTag w cls c num) (hne : ¬ (cls = 0 ∧ c = false ∧ num = 4)) :
    ∃ t, BERTLV.getInstance [0x30, 3, 4, -127, -2] 0 none = .ok t ∧ ∀ fuel, t.find (some w) fuel = none := by
  refine ⟨⟨true, some ⟨some 0, true, some 16, 1⟩, 3, some [4, -127, -2]⟩, rfl, ?_⟩
  intro fuel
  have hl : ∀ fuel, (BERTLV.mk true (some ⟨some 0, true, some 16, 1⟩) 3 (some [4, -127, -2])).find_ (some w) 0 fuel = none := by
    intro fuel
    induction fuel with
    | zero => rfl
    | succ fuel ih =>
      unfold BERTLV.find_
      have hg : BERTLV.getInstance ((some [4, -127, -2] : Option (List Int)).getD []) 0 none =
          .ok ⟨false, some ⟨some 0, false, some 4, 1⟩, -2, some (slice [4, -127, -2] 2 0)⟩ := rfl
      simp only
      rw [if_pos (by decide), hg]
      have heq : BERTag.eq ⟨some 0, false, some 4, 1⟩ w = false := by
        obtain ⟨h1, h2, h3⟩ := hw
        have := BERTLV.eq_hasTag w cls num c h1 h2 h3 ⟨0, false, 4, []⟩
        rw [show BERTag.eq ⟨some 0, false, some 4, 1⟩ w = BERTLV.hasTag cls num c ⟨0, false, 4, []⟩ from this]
        unfold BERTLV.hasTag
        simp only [decide_eq_false_iff_not]
        rintro ⟨e1, e2, e3⟩
        exact hne ⟨e1.symm, e2.symm, e3.symm⟩
      simp only [heq]
      exact ih
  unfold BERTLV.find
  rw [if_neg (by simp)]
  simp only
  rw [hl fuel]

/-! ### C46 -/

/-- C46. Appending a TLV object with a one-byte tag (whose tag object knows its size is 1) and at most 127 value bytes to a
constructed TLV appends exactly its encoding to the value and adds its size to the length. -/
theorem C46_append (t a : BERTLV) (v : List Int) (hc : t.constructed = true) (hv : t.value = some v) (tag atag : BERTag) (ht : t.tag = some tag)
    (n : Node) (ha : a.tag = some atag) (hi : IsTag atag n.cls n.constructed n.num) (has : atag.size = 1) (hav : a.value = some n.value)
    (hal : a.length = n.value.length) (hcls : n.cls < 4) (hn : n.num ≤ 30) (h127 : n.value.length ≤ 127) :
    ∃ t' enc, t.append a = (t'.size, t') ∧ Encodes n enc ∧ t'.value = some (v ++ enc) ∧ t'.length = t.length + enc.length ∧
      t'.tag = t.tag ∧ t'.constructed = true ∧ ∃ k, t'.size = .ok k := by
  have hsz : a.size = .ok (2 + (n.value.length : Int)) := (C40_size a atag ha n.value.length h127 hal).2 has
  obtain ⟨base, buf', enc, e, he, hsn, hw⟩ := C40_encode a atag n ha hi hav hal hcls hn h127 (fresh (2 + (n.value.length : Int)) 0) 0
    (by rw [fresh_length]; omega)
  have hel := BERTLV.encodes_length he
  have hb : buf' = enc := by
    have hle := hw.1
    rw [written_iff hle] at hw
    subst hw
    have hbl : base.length = 2 + n.value.length := by rw [hsn.1, fresh_length]; omega
    unfold splice
    simp [hel, hbl]
  rw [show ((0 : Nat) : Int) = 0 from rfl] at e
  subst hb
  refine ⟨{ t with value := some (v ++ buf'), length := t.length + (2 + (n.value.length : Int)) }, buf', ?_, he, rfl, ?_, rfl, hc, ?_⟩
  · unfold BERTLV.append
    rw [if_neg (by simp [hc]), hsz]
    simp only
    rw [e]
    simp only [hv]
  · simp only [hel]; omega
  · simp only [BERTLV.size, ht]; exact ⟨_, rfl⟩

theorem encodesAll_append {ns ms : List Node} {a b : List Int} (h1 : EncodesAll ns a) (h2 : EncodesAll ms b) : EncodesAll (ns ++ ms) (a ++ b) := by
  induction ns generalizing a with
  | nil => have : a = [] := h1; subst this; exact h2
  | cons n ns ih =>
    obtain ⟨x, y, rfl, hx, hy⟩ := h1
    exact ⟨x, y ++ b, by simp, hx, ih hy⟩

/-- C46. So a constructed TLV whose value is a sequence of children has, after the call, those children followed by the new
one, and its length is again the length of its value (so C43, C44 apply to it). -/
theorem C46_children (t a : BERTLV) (v : List Int) (hc : t.constructed = true) (hv : t.value = some v) (hl : t.length = v.length)
    (nodes : List Node) (hall : EncodesAll nodes v) (tag atag : BERTag) (ht : t.tag = some tag)
    (n : Node) (ha : a.tag = some atag) (hi : IsTag atag n.cls n.constructed n.num) (has : atag.size = 1) (hav : a.value = some n.value)
    (hal : a.length = n.value.length) (hcls : n.cls < 4) (hn : n.num ≤ 30) (h127 : n.value.length ≤ 127) :
    ∃ k t' v', t.append a = (.ok k, t') ∧ t'.value = some v' ∧ t'.length = v'.length ∧ EncodesAll (nodes ++ [n]) v' := by
  obtain ⟨t', enc, h1, h2, h3, h4, _, _, k, h5⟩ := C46_append t a v hc hv tag atag ht n ha hi has hav hal hcls hn h127
  refine ⟨k, t', v ++ enc, by rw [h1, h5], h3, by rw [h4, hl]; simp, ?_⟩
  exact encodesAll_append hall ⟨enc, [], by simp, h2, rfl⟩

/-- C46, what fails: a TLV whose tag object was made from class and number (size 0, C37) cannot be appended: the buffer
made for it is one byte short. The constructed TLV is unchanged. -/
theorem C46_built_tag_refused (t a : BERTLV) (hc : t.constructed = true) (atag : BERTag)
    (n : Node) (ha : a.tag = some atag) (hi : IsTag atag n.cls n.constructed n.num) (has : atag.size = 0) (hav : a.value = some n.value)
    (hal : a.length = n.value.length) (hn : n.num ≤ 30) (h127 : n.value.length ≤ 127) :
    ∃ e, t.append a = (.error e, t) := by
  have hsz : a.size = .ok (1 + (n.value.length : Int)) := by
    have := BERTLV.lengthLen_short (n.value.length : Int) (by omega)
    simp only [BERTLV.size, ha, hal, this, has, Except.ok.injEq]
    omega
  have ho : BERTag.octets n.cls n.constructed n.num = [leading n.cls n.constructed n.num] := by
    unfold BERTag.octets; rw [if_pos hn]
  have hfl : (fresh (1 + (n.value.length : Int)) (0 : Int)).length = 1 + n.value.length := by rw [fresh_length]; omega
  have hto : ∃ e b, a.toBytes (fresh (1 + (n.value.length : Int)) 0) 0 = (.error e, b) := by
    unfold BERTLV.toBytes
    rw [ha]
    have ht := BERTag.toBytes_eq atag n.cls n.num n.constructed hi.1 hi.2.1 hi.2.2 (fresh (1 + (n.value.length : Int)) 0) 0 (by rw [ho, hfl]; simp)
    rw [show ((0 : Nat) : Int) = 0 from rfl] at ht
    simp only
    rw [ht, ho]
    simp only
    rw [if_neg (by omega)]
    have hsl : ∀ x, (splice ((fresh (1 + (n.value.length : Int)) (0 : Int)).map BERTag.norm) 0 [x]).length = 1 + n.value.length := by
      intro x; rw [splice_length _ _ _ (by simp [hfl])]; simp [hfl]
    by_cases h0 : n.value.length = 0
    · rw [set_out _ _ _ (by simp only [List.map_cons, List.map_nil, List.length_cons, List.length_nil]; rw [hsl]; omega)]
      exact ⟨_, _, rfl⟩
    · have hset := set_natCast (splice ((fresh (1 + (n.value.length : Int)) (0 : Int)).map BERTag.norm) 0 [BERTag.norm (leading n.cls n.constructed n.num)]) 1 a.length
        (by rw [hsl]; omega)
      simp only [List.map_cons, List.map_nil, List.length_cons, List.length_nil]
      rw [show (0 : Int) + ((0 + 1 : Nat) : Int) = ((1 : Nat) : Int) from rfl, hset]
      simp only [hav, Option.getD_some, hal]
      have hcp := arrayCopy_eq n.value ((splice ((fresh (1 + (n.value.length : Int)) (0 : Int)).map BERTag.norm) 0 [BERTag.norm (leading n.cls n.constructed n.num)]).set 1 (n.value.length : Int)) 0 2 n.value.length
      rw [show (0 : Int) + (((0 + 1 : Nat) : Int) + 1) = ((2 : Nat) : Int) from rfl]
      rw [show ((0 : Nat) : Int) = 0 from rfl] at hcp
      rw [hcp]
      simp only [List.length_set, hsl]
      rw [if_neg (by omega)]
      exact ⟨_, _, rfl⟩
  obtain ⟨e, b, hto⟩ := hto
  refine ⟨e, ?_⟩
  unfold BERTLV.append
  rw [if_neg (by simp [hc]), hsz]
  simp only
  rw [hto]

example : (BERTLV.mk true (some ⟨some 0, true, some 16, 1⟩) 0 (some [])).append ⟨false, some ⟨some 0, false, some 4, 1⟩, 1, some [7]⟩ =
    (.ok 5, ⟨true, some ⟨some 0, true, some 16, 1⟩, 3, some [4, 1, 7]⟩) := by rfl
example : ((BERTLV.mk true (some ⟨some 0, true, some 16, 1⟩) 0 (some [])).append
    ⟨false, some ((BERTag.new false).initNumber 0 4), 1, some [7]⟩).1 = .error .arrayIndexOutOfBounds := by rfl

/-! ### C47, C48 -/

/-- C47. The static `findNext` never returns an offset: every call raises or returns -1. -/
theorem C47_static_findNext (arr : List Int) (o start : Int) (tagArray : Option (List Int)) (tagOff : Int) :
    (∃ e, BERTLV.findNextStatic arr o start tagArray tagOff = .error e) ∨ BERTLV.findNextStatic arr o start tagArray tagOff = .ok (-1) := by
  unfold BERTLV.findNextStatic
  cases BERTLV.getInstance arr o none with
  | error e => exact .inl ⟨_, rfl⟩
  | ok tlv =>
    simp only
    cases tlv.tag with
    | none => exact .inl ⟨_, rfl⟩
    | some tag =>
      simp only
      cases BERTLV.alignLoop tlv (o + tag.size + getLengthLen tlv.length) start with
      | error e => exact .inl ⟨_, rfl⟩
      | ok c =>
        simp only
        split
        · exact .inr rfl
        · split
          · exact .inl ⟨_, rfl⟩
          · exact .inl ⟨_, rfl⟩

/-- C47. Even in the plainest correct use - a well-formed constructed TLV, start offset at its first child - it raises a
NameError. -/
theorem C47_well_formed_use (arr : List Int) (o : Nat) (n : Node) (enc rest : List Int) (hd : arr.drop o = enc ++ rest) (he : Encodes n enc)
    (hc : n.constructed = true) (start : Int) (hs : start ≤ o + 2) (tagArray : Option (List Int)) (tagOff : Int) :
    BERTLV.findNextStatic arr o start tagArray tagOff = .error .nameError := by
  unfold BERTLV.findNextStatic
  rw [(BERTLV.getInstance_node arr o n enc rest hd he).1]
  have hll := BERTLV.lengthLen_short (n.value.length : Int) (by have := he.2.2.1; omega)
  simp only [BERTLV.ofNode]
  rw [hll]
  unfold BERTLV.alignLoop
  rw [if_neg (by omega)]
  simp [hc]

/-- C47. All outcomes on a well-formed short TLV: a primitive one is an AttributeError, a constructed one a NameError with a start offset at or before its first
child; past it, an empty one gives -1 and one with children an AttributeError. -/
theorem C47_outcomes (arr : List Int) (o : Nat) (n : Node) (enc rest : List Int) (hd : arr.drop o = enc ++ rest) (he : Encodes n enc)
    (start : Int) (tagArray : Option (List Int)) (tagOff : Int) :
    (n.constructed = false → BERTLV.findNextStatic arr o start tagArray tagOff = .error .attributeError) ∧
    (n.constructed = true → start ≤ o + 2 → BERTLV.findNextStatic arr o start tagArray tagOff = .error .nameError) ∧
    (n.constructed = true → o + 2 < start → n.value = [] → BERTLV.findNextStatic arr o start tagArray tagOff = .ok (-1)) ∧
    (n.constructed = true → o + 2 < start → ∀ m ms, EncodesAll (m :: ms) n.value → BERTLV.findNextStatic arr o start tagArray tagOff = .error .attributeError) := by
  obtain ⟨cls, constr, num, value⟩ := n
  have hll := BERTLV.lengthLen_short (value.length : Int) (by have h : value.length ≤ 127 := he.2.2.1; omega)
  have hg := (BERTLV.getInstance_node arr o _ enc rest hd he).1
  refine ⟨fun hc => ?_, fun hc hs => C47_well_formed_use arr o _ enc rest hd he hc start hs tagArray tagOff, fun hc hs hv => ?_, fun hc hs m ms hm => ?_⟩
  · have hc : constr = false := hc
    subst hc
    unfold BERTLV.findNextStatic
    rw [hg]
    simp only [BERTLV.ofNode]
    rw [hll]
    unfold BERTLV.alignLoop
    by_cases h : (o : Int) + 1 + 1 + 0 < start
    · rw [if_pos h]; rfl
    · rw [if_neg h]; rfl
  · have hc : constr = true := hc
    have hv : value = [] := hv
    subst hc; subst hv
    unfold BERTLV.findNextStatic
    rw [hg]
    simp only [BERTLV.ofNode]
    rw [hll]
    unfold BERTLV.alignLoop
    rw [if_pos (by omega)]
    rfl
  · have hc : constr = true := hc
    subst hc
    have hm : EncodesAll (m :: ms) value := hm
    unfold BERTLV.findNextStatic
    rw [hg]
    simp only [BERTLV.ofNode]
    rw [hll]
    unfold BERTLV.alignLoop
    have hpos : 0 < value.length := by
      obtain ⟨a, b, e, hen, _⟩ := hm
      have := BERTLV.encodes_length hen
      rw [e]; simp; omega
    rw [if_pos (by omega)]
    simp only [not_true_eq_false, if_false]
    unfold BERTLV.find_
    simp only
    rw [if_pos (by omega)]
    have hat := (node_at (v := value) (o := 0) (by simpa using hm)).1
    rw [show ((0 : Nat) : Int) = 0 from rfl] at hat
    simp only [Option.getD_some]
    rw [hat]
    rfl

/-- All four cases occur. -/
example : BERTLV.findNextStatic [4, 1, 7] 0 9 none 0 = .error .attributeError ∧ BERTLV.findNextStatic [0x30, 3, 4, 1, 7] 0 2 none 0 = .error .nameError ∧
    BERTLV.findNextStatic [0x30, 0] 0 3 none 0 = .ok (-1) ∧ BERTLV.findNextStatic [0x30, 3, 4, 1, 7] 0 3 none 0 = .error .attributeError := by decide

/-- C48. `init(bArray, bOff, bLen)` on a TLV object never changes the object; a successful call returns the size of another,
discarded object. -/
theorem C48_init_no_effect (t : BERTLV) (arr : List Int) (o n : Int) :
    (t.initArray arr o n).2 = t ∧ ((t.initArray arr o n).1 = match BERTLV.getInstance arr o (some n) with | .ok u => u.size | .error e => .error e) := by
  unfold BERTLV.initArray
  cases BERTLV.getInstance arr o (some n) <;> exact ⟨rfl, rfl⟩

/-- C48. So on a fresh TLV object, `init` from a well-formed encoding reports its size, and the object's own `size()` then
still raises AttributeError. -/
theorem C48_fresh_object (arr : List Int) (o : Nat) (n : Node) (enc rest : List Int) (hd : arr.drop o = enc ++ rest) (he : Encodes n enc) :
    ((BERTLV.new n.constructed).initArray arr o (enc.length : Int)).1 = .ok (enc.length : Int) ∧
    ((BERTLV.new n.constructed).initArray arr o (enc.length : Int)).2.size = .error .attributeError := by
  have hlen := BERTLV.encodes_length he
  obtain ⟨h1, h2⟩ := BERTLV.getInstance_node arr o n enc rest hd he
  have e : BERTLV.getInstance arr o (some (enc.length : Int)) = BERTLV.getInstance arr o none := by
    unfold BERTLV.getInstance
    simp only
    rw [h2, hlen]
    rfl
  have hr := C48_init_no_effect (BERTLV.new n.constructed) arr o (enc.length : Int)
  rw [hr.1, hr.2, e, h1]
  simp only
  rw [BERTLV.ofNode_size n he.2.2.1, hlen]
  exact ⟨rfl, rfl⟩

end Verif.Props
