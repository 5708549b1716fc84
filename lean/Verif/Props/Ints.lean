import Verif.Spec.Basic
import Verif.Model.Util
import Verif.Model.JCint
import Verif.Lemmas.Signed
import Verif.Lemmas.Lists
/-! C01, C02, C03, C35: sign conversion, shorts and ints. -/
namespace Verif.Props
open Verif.Py Verif.Model Verif.Spec

/-! ### C01 -/

/-- C01: on every unsigned or signed value of its width, `signed(v, d)` is the two's-complement
value with the same bit pattern, for every width. -/
theorem C01_signed (d : Nat) (hd : 0 < d) (v : Int) (h1 : -(2 ^ (8 * d - 1)) ≤ v) (h2 : v < 2 ^ (8 * d)) :
    IsSignedOf (8 * d) v (signed v d) := by
  have e : d * 8 = 8 * d := Nat.mul_comm _ _
  rw [signed_eq, e]
  have hp : (2 : Int) ^ (8 * d) = 2 * 2 ^ (8 * d - 1) := by
    have : 8 * d = (8 * d - 1) + 1 := by omega
    conv => lhs; rw [this, Int.pow_succ]
    omega
  have hpos : (0 : Int) < 2 ^ (8 * d - 1) := Int.pow_pos (by decide)
  unfold IsSignedOf
  rw [hp] at h2 ⊢
  clear hp
  generalize (2 : Int) ^ (8 * d - 1) = P at *
  split
  · have hm : (-v) % (2 * P) = 2 * P - v := by
      rw [← Int.add_mul_emod_self_left (-v) (2 * P) 1]
      rw [Int.emod_eq_of_lt] <;> omega
    rw [hm]
    refine ⟨by omega, by omega, ⟨1, by omega⟩⟩
  · refine ⟨by omega, by omega, ⟨0, by omega⟩⟩

/-- C01: `s1`, `s2`, `s4` are the conversions of width 8, 16 and 32. -/
theorem C01_s1 (v : Int) (h1 : -128 ≤ v) (h2 : v ≤ 255) : IsSignedOf 8 v (s1 v) :=
  C01_signed 1 (by decide) v (by simpa using h1) (by simp; omega)
theorem C01_s2 (v : Int) (h1 : -32768 ≤ v) (h2 : v ≤ 65535) : IsSignedOf 16 v (s2 v) :=
  C01_signed 2 (by decide) v (by simpa using h1) (by simp; omega)
theorem C01_s4 (v : Int) (h1 : -2147483648 ≤ v) (h2 : v ≤ 4294967295) : IsSignedOf 32 v (s4 v) :=
  C01_signed 4 (by decide) v (by simpa using h1) (by simp; omega)

/-- C01: signed values are left unchanged. -/
theorem C01_s1_signed (v : Int) (h : IsByte v) : s1 v = v := s1_byte v (by have := h.2; omega)
theorem C01_s2_signed (v : Int) (h : IsShort v) : s2 v = v := by
  have := h.2; rw [s2_eq]; split <;> omega
theorem C01_s4_signed (v : Int) (h : IsInt32 v) : s4 v = v := by
  have := h.2; rw [s4_eq]; split <;> omega

/-- C01: `u1` inverts `s1` on unsigned bytes, and `s1` inverts `u1` on signed bytes. -/
theorem C01_u1_s1 (v : Int) (h1 : 0 ≤ v) (h2 : v ≤ 255) : u1 (s1 v) = v := by
  rw [u1_eq, s1_mod]; omega
theorem C01_s1_u1 (v : Int) (h : IsByte v) : s1 (u1 v) = v := by
  have := h.1; have := h.2
  rw [u1_eq, s1_eq]; split <;> omega

/-- Beyond the width only the congruence survives: `signed` is always congruent to its argument
(C01's range hypotheses are needed). -/
theorem C01_signed_congr (d : Nat) (v : Int) : (2 ^ (8 * d) : Int) ∣ v - signed v d := by
  have e : d * 8 = 8 * d := Nat.mul_comm _ _
  rw [signed_eq, e]
  split
  · rw [Int.emod_def]
    exact ⟨-(-v / 2 ^ (8 * d)), by rw [Int.mul_neg]; omega⟩
  · exact ⟨0, by omega⟩

/-- C01's range is sharp: above it the result is not the signed reading. -/
theorem C01_s1_outside : ¬ IsSignedOf 8 300 (s1 300) := by
  unfold IsSignedOf; decide

example : IsSignedOf 8 200 (-56) ∧ s1 200 = -56 := by
  refine ⟨⟨by decide, by decide, by decide⟩, by decide⟩

/-! ### C02 -/

/-- C02: whatever the spelling of the two bytes, `makeShort` is the signed short with high byte
`h` and low byte `l`. -/
theorem C02_makeShort (b1 b2 : Int) (h l : Nat) (h1 : Spells b1 h) (h2 : Spells b2 l) :
    IsShort (Util.makeShort b1 b2) ∧ IsSignedOf 16 (h * 256 + l) (Util.makeShort b1 b2) := by
  obtain ⟨hh, hb1⟩ := h1
  obtain ⟨hl, hb2⟩ := h2
  have e1 : b1 % 256 = h := by omega
  have e2 : b2 % 256 = l := by omega
  have e : Util.makeShort b1 b2 = s2 (h * 256 + l) := by
    rw [Util.makeShort, makeShort_aux, e1, e2]
  rw [e]
  have := C01_s2 (h * 256 + l) (by omega) (by omega)
  refine ⟨?_, this⟩
  obtain ⟨a, b, _⟩ := this
  simp at a b
  exact ⟨a, by omega⟩

/-- C02: only the low 8 bits of the arguments matter, for arbitrary integers. -/
theorem C02_low_bits (b1 b2 c1 c2 : Int) (h1 : b1 % 256 = c1 % 256) (h2 : b2 % 256 = c2 % 256) :
    Util.makeShort b1 b2 = Util.makeShort c1 c2 := by
  rw [Util.makeShort, Util.makeShort, makeShort_aux, makeShort_aux, h1, h2]

/-- C02: the result is a short for arbitrary integer arguments. -/
theorem C02_range (b1 b2 : Int) : IsShort (Util.makeShort b1 b2) := by
  rw [Util.makeShort, makeShort_aux, s2_eq]
  constructor <;> (split <;> omega)

example : Util.makeShort (-128) 1 = -32767 ∧ Util.makeShort 128 1 = -32767 := by decide

/-! ### C03 -/

theorem setShort_ok (l : List Int) (off : Nat) (v : Int) (h : off + 2 ≤ l.length) :
    Util.setShort l off v =
      (.ok (), (l.set off (s1 (v / 256 % 256))).set (off + 1) (s1 (v % 256))) := by
  have e : (v / 256 % 256 * 256 / 2 ^ 8) = v / 256 % 256 := by
    rw [show (2 : Int) ^ 8 = 256 by decide]; omega
  simp only [Util.setShort, iand_ff00, iand_ff, shr, e]
  rw [set_natCast _ _ _ (by omega)]
  simp only
  rw [show (off : Int) + 1 = ((off + 1 : Nat) : Int) by omega, set_natCast _ _ _ (by simp; omega)]

/-- C03: `setShort` writes exactly the two cells at `off`, with two signed bytes whose value is
`v` modulo `2^16`; `getShort` then returns the short congruent to `v`. -/
theorem C03_setShort_getShort (l : List Int) (off : Nat) (v : Int) (h : off + 2 ≤ l.length) :
    ∃ hi lo l', Util.setShort l off v = (.ok (), l') ∧
      IsByte hi ∧ IsByte lo ∧ Written l l' off [hi, lo] ∧
      ∃ r, Util.getShort l' off = .ok r ∧ IsSignedOf 16 v r := by
  refine ⟨s1 (v / 256 % 256), s1 (v % 256), _, setShort_ok l off v h, ?_, ?_, ?_, ?_⟩
  · exact s1_isByte _ (by omega) (by omega)
  · exact s1_isByte _ (by omega) (by omega)
  · refine ⟨by simpa using h, by simp, ?_, ?_⟩
    · intro i hi
      match i, hi with
      | 0, _ => simp [show off < l.length by omega]
      | 1, _ => simp [show off + 1 < l.length by omega]
    · intro j hj
      simp only [List.length_cons, List.length_nil] at hj
      rw [List.getElem?_set_ne (by omega), List.getElem?_set_ne (by omega)]
  · have hg : ∀ (x y : Int), Util.getShort ((l.set off x).set (off + 1) y) off = .ok (Util.makeShort x y) := by
      intro x y
      unfold Util.getShort
      rw [get_natCast _ _ (by simp; omega)]
      simp only
      rw [show (off : Int) + 1 = ((off + 1 : Nat) : Int) by omega, get_natCast _ _ (by simp; omega)]
      simp [mapIndexError]
    refine ⟨_, hg _ _, ?_⟩
    have hr := C02_range (s1 (v / 256 % 256)) (s1 (v % 256))
    refine ⟨by simpa using hr.1, by have := hr.2; simp; omega, ?_⟩
    rw [Util.makeShort, makeShort_aux, s1_mod, s1_mod]
    have hm := s2_mod (v / 256 % 256 % 256 * 256 + v % 256 % 256)
    show (65536 : Int) ∣ _
    omega

/-- C03: a short reads back as itself. -/
theorem C03_roundtrip (l : List Int) (off : Nat) (v : Int) (h : off + 2 ≤ l.length) (hv : IsShort v) :
    Util.getShort (Util.setShort l off v).2 off = .ok v := by
  obtain ⟨_, _, l', hs, _, _, _, r, hr, h1, h2, h3⟩ := C03_setShort_getShort l off v h
  rw [hs, hr]
  have := hv.1; have := hv.2
  simp at h1 h2
  change (65536 : Int) ∣ _ at h3
  congr 1; omega

/-- C03: the high byte comes first: the cell at `off` gets the byte of `v / 256`, the next one that of `v`. -/
theorem C03_byte_order (l : List Int) (off : Nat) (v : Int) (h : off + 2 ≤ l.length) :
    ∃ hi lo, (Util.setShort l off v).2[off]? = some hi ∧ (Util.setShort l off v).2[off + 1]? = some lo ∧
      IsSignedOf 8 (v / 256 % 256) hi ∧ IsSignedOf 8 (v % 256) lo := by
  rw [setShort_ok l off v h]
  refine ⟨s1 (v / 256 % 256), s1 (v % 256), ?_, ?_, C01_s1 _ (by omega) (by omega), C01_s1 _ (by omega) (by omega)⟩
  · simp [show off < l.length by omega]
  · simp [show off + 1 < l.length by omega]

/-- C03: `getShort` reads any two cells, signed or unsigned, as a short with the high byte first. -/
theorem C03_getShort (l : List Int) (off h b : Nat) (x y : Int) (hx : l[off]? = some x) (hy : l[off + 1]? = some y)
    (h1 : Spells x h) (h2 : Spells y b) : ∃ r, Util.getShort l off = .ok r ∧ IsSignedOf 16 (h * 256 + b) r := by
  obtain ⟨hl1, ex⟩ := List.getElem?_eq_some_iff.1 hx
  obtain ⟨hl2, ey⟩ := List.getElem?_eq_some_iff.1 hy
  refine ⟨_, ?_, (C02_makeShort x y h b h1 h2).2⟩
  unfold Util.getShort
  rw [get_natCast _ _ hl1]
  simp only
  rw [show (off : Int) + 1 = ((off + 1 : Nat) : Int) by omega, get_natCast _ _ hl2, ex, ey]
  rfl

example : Util.getShort [7, 0x12, 0xF0 - 256, 9] 1 = .ok 0x12F0 ∧ Spells 0x12 0x12 ∧ Spells (0xF0 - 256) 0xF0 :=
  ⟨by decide, by unfold Spells; omega, by unfold Spells; omega⟩

/-- C08: a `setShort` that fails on the last cell of the array has already stored the high byte there; one that starts beyond the
end stores nothing. -/
theorem C08_setShort_overrun_store (l : List Int) (off : Nat) (v : Int) (h : l.length < off + 2) :
    ∃ l', Util.setShort l off v = (.error .arrayIndexOutOfBounds, l') ∧
      (l.length ≤ off → l' = l) ∧
      (off + 1 = l.length → ∃ hi, IsByte hi ∧ (256 : Int) ∣ hi - v / 256 ∧ Written l l' off [hi]) := by
  have e : (v / 256 % 256 * 256 / 2 ^ 8) = v / 256 % 256 := by
    rw [show (2 : Int) ^ 8 = 256 by decide]; omega
  simp only [Util.setShort, iand_ff00, iand_ff, shr, e]
  by_cases h0 : l.length ≤ off
  · rw [set_out _ _ _ (by omega)]
    exact ⟨l, rfl, fun _ => rfl, fun h => by omega⟩
  · rw [set_natCast _ _ _ (by omega)]
    simp only
    rw [set_out _ _ _ (by simp; omega)]
    refine ⟨_, rfl, fun h => by omega, fun _ => ⟨s1 (v / 256 % 256), s1_isByte _ (by omega) (by omega), ?_, ?_⟩⟩
    · have := s1_mod (v / 256 % 256)
      omega
    · refine ⟨by simp; omega, by simp, ?_, ?_⟩
      · intro i hi
        match i, hi with
        | 0, _ => simp [show off < l.length by omega]
      · intro j hj
        simp only [List.length_cons, List.length_nil] at hj
        rw [List.getElem?_set_ne (by omega)]

example : Util.setShort [7, 8] 1 0x1234 = (.error .arrayIndexOutOfBounds, [7, 0x12]) := by decide

example : (2 : Nat) + 2 ≤ [0, 0, 0, 7, 9].length ∧
    Util.setShort [0, 0, 0, 7, 9] 2 (-2) = (.ok (), [0, 0, -1, -2, 9]) := by decide

/-! ### C35 -/

/-- The four signed bytes of `v` modulo `2^32`, most significant first. -/
def intBytes (v : Int) : List Int :=
  [v / 16777216, v / 65536, v / 256, v].map fun x => Int.bmod x 256

theorem s1_bmod (x : Int) (h : 0 ≤ x) (h2 : x < 256) : s1 x = Int.bmod x 256 := by
  rw [s1_eq, Int.bmod_def]; split <;> split <;> omega

theorem s1_emod_bmod (x : Int) : s1 (x % 256) = Int.bmod x 256 := by
  rw [s1_eq, Int.bmod_def]; split <;> split <;> omega

theorem setInt_ok (l : List Int) (off : Nat) (a b : Int) (h : off + 4 ≤ l.length) :
    ∃ l', JCint.setInt l off a b = (.ok (off + 4), l') ∧
      l' = (((l.set off (Int.bmod (JCint.makeInt2 a b / 16777216) 256)).set (off + 1)
        (Int.bmod (JCint.makeInt2 a b / 65536) 256)).set (off + 2)
        (Int.bmod (JCint.makeInt2 a b / 256) 256)).set (off + 3)
        (Int.bmod (JCint.makeInt2 a b) 256) := by
  simp only [JCint.setInt, iand_ff, shr, s1_emod_bmod]
  generalize JCint.makeInt2 a b = v
  rw [set_natCast _ _ _ (by omega)]
  simp only
  rw [show (off : Int) + 1 = ((off + 1 : Nat) : Int) by omega, set_natCast _ _ _ (by simp; omega)]
  simp only
  rw [show (off : Int) + 2 = ((off + 2 : Nat) : Int) by omega, set_natCast _ _ _ (by simp; omega)]
  simp only
  rw [show (off : Int) + 3 = ((off + 3 : Nat) : Int) by omega, set_natCast _ _ _ (by simp; omega)]
  refine ⟨_, rfl, ?_⟩
  rfl

theorem makeInt2_congr (a b : Int) : (JCint.makeInt2 a b) % 4294967296 = (a * 65536 + b) % 4294967296 := by
  unfold JCint.makeInt2
  rw [s4_mod]; rfl

/-- The bytes of a number depend only on its low 32 bits. -/
theorem intBytes_congr (v w : Int) (h : v % 4294967296 = w % 4294967296) : intBytes v = intBytes w := by
  have h1 : Int.bmod (v / 16777216) 256 = Int.bmod (w / 16777216) 256 := by
    rw [Int.bmod_def, Int.bmod_def]; split <;> split <;> omega
  have h2 : Int.bmod (v / 65536) 256 = Int.bmod (w / 65536) 256 := by
    rw [Int.bmod_def, Int.bmod_def]; split <;> split <;> omega
  have h3 : Int.bmod (v / 256) 256 = Int.bmod (w / 256) 256 := by
    rw [Int.bmod_def, Int.bmod_def]; split <;> split <;> omega
  have h4 : Int.bmod v 256 = Int.bmod w 256 := by
    rw [Int.bmod_def, Int.bmod_def]; split <;> split <;> omega
  simp [intBytes, h1, h2, h3, h4]

/-- C35: `setInt` writes exactly the four signed bytes of `iValue1·2^16 + iValue2` modulo `2^32`
and returns the next offset. -/
theorem C35_setInt (l : List Int) (off : Nat) (a b : Int) (h : off + 4 ≤ l.length) :
    ∃ l', JCint.setInt l off a b = (.ok (off + 4), l') ∧
      Written l l' off (intBytes (a * 65536 + b)) := by
  obtain ⟨l', hs, hl⟩ := setInt_ok l off a b h
  refine ⟨l', hs, ?_⟩
  rw [intBytes_congr _ _ (makeInt2_congr a b).symm]
  subst hl
  refine ⟨by simpa [intBytes] using h, by simp, ?_, ?_⟩
  · intro i hi
    match i, hi with
    | 0, _ => simp [intBytes, show off < l.length by omega]
    | 1, _ => simp [intBytes, show off + 1 < l.length by omega]
    | 2, _ => simp [intBytes, show off + 2 < l.length by omega]
    | 3, _ => simp [intBytes, show off + 3 < l.length by omega]
  · intro j hj
    simp only [intBytes, List.length_map, List.length_cons, List.length_nil] at hj
    rw [List.getElem?_set_ne (by omega), List.getElem?_set_ne (by omega),
      List.getElem?_set_ne (by omega), List.getElem?_set_ne (by omega)]

/-- `setInt` with fewer than four cells left raises `IndexError`. -/
theorem C35_setInt_overrun (l : List Int) (off : Nat) (a b : Int) (h : l.length < off + 4) :
    (JCint.setInt l off a b).1 = .error .indexError := by
  have key : ∀ (l' : List Int) (k : Nat) (v : Int), l'.length ≤ k →
      Verif.Py.set l' (k : Int) v = .error .indexError := by
    intro l' k v hk
    exact set_out l' k v (by omega)
  simp only [JCint.setInt]
  rw [show (off : Int) + 1 = ((off + 1 : Nat) : Int) by omega,
    show (off : Int) + 2 = ((off + 2 : Nat) : Int) by omega,
    show (off : Int) + 3 = ((off + 3 : Nat) : Int) by omega]
  by_cases h0 : off < l.length
  · rw [set_natCast _ _ _ h0]
    simp only
    by_cases h1 : off + 1 < l.length
    · rw [set_natCast _ _ _ (by simp; omega)]
      simp only
      by_cases h2 : off + 2 < l.length
      · rw [set_natCast _ _ _ (by simp; omega)]
        simp only
        rw [key _ _ _ (by simp; omega)]
      · rw [key _ _ _ (by simp; omega)]
    · rw [key _ _ _ (by simp; omega)]
  · rw [key _ _ _ (by omega)]

theorem getInt_eq (l : List Int) (off : Nat) (b0 b1 b2 b3 : Int)
    (h0 : l[off]? = some b0) (h1 : l[off + 1]? = some b1) (h2 : l[off + 2]? = some b2)
    (h3 : l[off + 3]? = some b3) :
    JCint.getInt l off = .ok (s4 (b0 * 16777216 + b1 * 65536 + b2 * 256 + b3)) := by
  have g : ∀ (k : Nat) (b : Int), l[k]? = some b → get l (k : Int) = .ok b := by
    intro k b hb
    obtain ⟨hk, hb'⟩ := List.getElem?_eq_some_iff.mp hb
    rw [get_natCast _ _ hk, hb']
  unfold JCint.getInt
  rw [show (off : Int) + 1 = ((off + 1 : Nat) : Int) by omega,
    show (off : Int) + 2 = ((off + 2 : Nat) : Int) by omega,
    show (off : Int) + 3 = ((off + 3 : Nat) : Int) by omega,
    g _ _ h0, g _ _ h1, g _ _ h2, g _ _ h3]
  rfl

/-- C35: after `setInt`, `getInt` returns the 32-bit value exactly when none of the three low
bytes has its high bit set. The value intended is `v = iValue1·2^16 + iValue2`, taken as a signed
32-bit number. -/
theorem C35_getInt_setInt (l : List Int) (off : Nat) (a b : Int) (h : off + 4 ≤ l.length)
    (hv : IsInt32 (a * 65536 + b)) :
    (JCint.getInt (JCint.setInt l off a b).2 off = .ok (a * 65536 + b)) ↔
      ∀ x ∈ (intBytes (a * 65536 + b)).drop 1, 0 ≤ x := by
  obtain ⟨l', hs, hlen, hlen', hw, -⟩ := C35_setInt l off a b h
  rw [hs]
  generalize hvv : a * 65536 + b = v at *
  have w0 := hw 0 (by simp [intBytes])
  have w1 := hw 1 (by simp [intBytes])
  have w2 := hw 2 (by simp [intBytes])
  have w3 := hw 3 (by simp [intBytes])
  simp only [Nat.add_zero] at w0
  rw [getInt_eq l' off _ _ _ _ w0 w1 w2 w3]
  simp only [intBytes, List.map_cons, List.map_nil, List.getElem_cons_zero, List.getElem_cons_succ,
    List.drop_succ_cons, List.drop_zero, List.mem_cons, List.not_mem_nil, or_false,
    forall_eq_or_imp, forall_eq, Except.ok.injEq]
  obtain ⟨hv1, hv2⟩ := hv
  have hlow : (v / 256 % 256) * 256 = v % 65536 - v % 256 := by omega
  rw [s4_eq]
  simp only [Int.bmod_def]
  constructor
  · intro he
    refine ⟨?_, ?_, ?_⟩ <;> (repeat' split at he) <;> (repeat' split) <;> omega
  · intro ⟨c1, c2, c3⟩
    (repeat' split at c1) <;> (repeat' split at c2) <;> (repeat' split at c3) <;>
      (repeat' split) <;> omega

/-- C35: a concrete value that does not survive (0x80 in the lowest byte). -/
theorem C35_getInt_wrong : JCint.setInt [0, 0, 0, 0] 0 0 128 = (.ok 4, [0, 0, 0, -128]) ∧
    JCint.getInt [0, 0, 0, -128] 0 = .ok (-128) := by decide

/-- C35: what `getInt` computes on four signed bytes: each negative low byte borrows from the
byte above, so the result is the true value minus `2^8`, `2^16`, `2^24` for each of them (when
that is a 32-bit value). -/
theorem C35_getInt_borrow (l : List Int) (off : Nat) (b0 b1 b2 b3 : Int)
    (h0 : l[off]? = some b0) (h1 : l[off + 1]? = some b1) (h2 : l[off + 2]? = some b2)
    (h3 : l[off + 3]? = some b3) (k0 : IsByte b0) (k1 : IsByte b1) (k2 : IsByte b2) (k3 : IsByte b3) :
    JCint.getInt l off = .ok (b0 * 16777216 + (b1 % 256) * 65536 + (b2 % 256) * 256 + b3 % 256
      - (if b1 < 0 then 16777216 else 0) - (if b2 < 0 then 65536 else 0)
      - (if b3 < 0 then 256 else 0)) := by
  rw [getInt_eq l off _ _ _ _ h0 h1 h2 h3, s4_eq]
  obtain ⟨_, _⟩ := k0; obtain ⟨_, _⟩ := k1; obtain ⟨_, _⟩ := k2; obtain ⟨_, _⟩ := k3
  congr 1
  (repeat' split) <;> omega

/-- C35: `makeInt(b1, b2, b3, b4)` is what `getInt` reads from an array with these four cells; a negative byte borrows from
the one above. -/
theorem C35_makeInt (b0 b1 b2 b3 : Int) (k0 : IsByte b0) (k1 : IsByte b1) (k2 : IsByte b2) (k3 : IsByte b3) :
    JCint.makeInt4 b0 b1 b2 b3 = b0 * 16777216 + (b1 % 256) * 65536 + (b2 % 256) * 256 + b3 % 256
      - (if b1 < 0 then 16777216 else 0) - (if b2 < 0 then 65536 else 0) - (if b3 < 0 then 256 else 0) ∧
    (∀ (l : List Int) (off : Nat), l[off]? = some b0 → l[off + 1]? = some b1 → l[off + 2]? = some b2 → l[off + 3]? = some b3 →
      JCint.getInt l off = .ok (JCint.makeInt4 b0 b1 b2 b3)) := by
  have key : ∀ (l : List Int) (off : Nat), l[off]? = some b0 → l[off + 1]? = some b1 → l[off + 2]? = some b2 → l[off + 3]? = some b3 →
      JCint.getInt l off = .ok (JCint.makeInt4 b0 b1 b2 b3) := by
    intro l off h0 h1 h2 h3
    rw [getInt_eq l off _ _ _ _ h0 h1 h2 h3]
    rfl
  refine ⟨?_, key⟩
  have e := C35_getInt_borrow [b0, b1, b2, b3] 0 b0 b1 b2 b3 rfl rfl rfl rfl k0 k1 k2 k3
  rw [key [b0, b1, b2, b3] 0 rfl rfl rfl rfl] at e
  injection e

/-- C35: `makeInt(s1, s2)` of two shorts is `s1·2^16 + s2`: a negative low short borrows from the high one. -/
theorem C35_makeInt_shorts (a b : Int) (ha : IsShort a) (hb : IsShort b) : JCint.makeInt2 a b = a * 65536 + b := by
  unfold JCint.makeInt2
  rw [s4_eq]
  obtain ⟨_, _⟩ := ha; obtain ⟨_, _⟩ := hb
  show (if a * 65536 + b > 2147483647 then _ else a * 65536 + b) = _
  rw [if_neg (by omega)]

/-- C35: `makeTransientIntArray(n, event)` is a list of `n` zeros, empty when `n` is negative. -/
theorem C35_transient (n event : Int) : (JCint.makeTransientIntArray n event).length = n.toNat ∧
    ∀ x ∈ JCint.makeTransientIntArray n event, x = 0 := by
  unfold JCint.makeTransientIntArray rangeLen
  exact ⟨by simp, fun x hx => (List.mem_replicate.mp hx).2⟩

/-- C35: when fewer than four cells are left, `setInt` raises `IndexError` after having stored, in the cells that are left, the
leading bytes of the value. -/
theorem C35_setInt_overrun_store (l : List Int) (off : Nat) (a b : Int) (h : l.length < off + 4) (h0 : off ≤ l.length) :
    (JCint.setInt l off a b).1 = .error .indexError ∧
      Written l (JCint.setInt l off a b).2 off ((intBytes (a * 65536 + b)).take (l.length - off)) := by
  refine ⟨C35_setInt_overrun l off a b h, ?_⟩
  rw [intBytes_congr _ _ (makeInt2_congr a b).symm]
  have key : ∀ (l' : List Int) (k : Nat) (v : Int), l'.length ≤ k →
      Verif.Py.set l' (k : Int) v = .error .indexError := fun l' k v hk => set_out l' k v (by omega)
  simp only [JCint.setInt, iand_ff, shr, s1_emod_bmod]
  generalize JCint.makeInt2 a b = v
  rw [show (off : Int) + 1 = ((off + 1 : Nat) : Int) by omega,
    show (off : Int) + 2 = ((off + 2 : Nat) : Int) by omega,
    show (off : Int) + 3 = ((off + 3 : Nat) : Int) by omega]
  have hk : l.length - off = 0 ∨ l.length - off = 1 ∨ l.length - off = 2 ∨ l.length - off = 3 := by omega
  rcases hk with e | e | e | e <;> rw [e]
  · rw [key _ _ _ (by omega)]
    exact ⟨by simpa using h0, rfl, by intro i hi; simp at hi, fun _ _ => rfl⟩
  · rw [set_natCast _ _ _ (by omega)]
    simp only
    rw [key _ _ _ (by simp; omega)]
    refine ⟨by simp [intBytes]; omega, by simp, ?_, ?_⟩
    · intro i hi
      match i, hi with
      | 0, _ => simp [intBytes, show off < l.length by omega]
    · intro j hj
      simp [intBytes] at hj
      rw [List.getElem?_set_ne (by omega)]
  · rw [set_natCast _ _ _ (by omega)]
    simp only
    rw [set_natCast _ _ _ (by simp; omega)]
    simp only
    rw [key _ _ _ (by simp; omega)]
    refine ⟨by simp [intBytes]; omega, by simp, ?_, ?_⟩
    · intro i hi
      match i, hi with
      | 0, _ => simp [intBytes, show off < l.length by omega]
      | 1, _ => simp [intBytes, show off + 1 < l.length by omega]
    · intro j hj
      simp [intBytes] at hj
      rw [List.getElem?_set_ne (by omega), List.getElem?_set_ne (by omega)]
  · rw [set_natCast _ _ _ (by omega)]
    simp only
    rw [set_natCast _ _ _ (by simp; omega)]
    simp only
    rw [set_natCast _ _ _ (by simp; omega)]
    simp only
    rw [key _ _ _ (by simp; omega)]
    refine ⟨by simp [intBytes]; omega, by simp, ?_, ?_⟩
    · intro i hi
      match i, hi with
      | 0, _ => simp [intBytes, show off < l.length by omega]
      | 1, _ => simp [intBytes, show off + 1 < l.length by omega]
      | 2, _ => simp [intBytes, show off + 2 < l.length by omega]
    · intro j hj
      simp [intBytes] at hj
      rw [List.getElem?_set_ne (by omega), List.getElem?_set_ne (by omega), List.getElem?_set_ne (by omega)]

/-- C35: `sanatize` turns a list of unsigned bytes into the signed bytes with the same low eight bits, and leaves signed bytes alone. -/
theorem C35_sanatize (l : List Int) (h : ∀ x ∈ l, -128 ≤ x ∧ x ≤ 255) :
    (JCint.sanatize l).length = l.length ∧ (∀ y ∈ JCint.sanatize l, IsByte y) ∧
    (JCint.sanatize l).map (· % 256) = l.map (· % 256) ∧ ((∀ x ∈ l, IsByte x) → JCint.sanatize l = l) := by
  unfold JCint.sanatize
  refine ⟨by simp, ?_, ?_, ?_⟩
  · intro y hy
    obtain ⟨x, hx, rfl⟩ := List.mem_map.mp hy
    have := h x hx
    rw [s1_eq]
    unfold IsByte
    split <;> omega
  · rw [List.map_map]
    refine List.map_congr_left fun x hx => ?_
    have := h x hx
    show s1 x % 256 = _
    rw [s1_eq]
    split <;> omega
  · intro hb
    conv => rhs; rw [← List.map_id l]
    refine List.map_congr_left fun x hx => ?_
    obtain ⟨_, _⟩ := hb x hx
    rw [s1_eq, if_neg (by omega)]
    rfl

example : JCint.makeInt4 1 (-1) 2 3 = 1 * 16777216 - 65536 + 2 * 256 + 3 ∧ JCint.sanatize [0, 127, 128, 255] = [0, 127, -128, -1] ∧
    JCint.setInt [9, 9, 9] 1 0x1234 0x5678 = (.error .indexError, [9, 0x12, 0x34]) := by decide

example : JCint.setInt [9, 0, 0, 0, 0, 9] 1 0x1234 0x5678 = (.ok 5, [9, 0x12, 0x34, 0x56, 0x78, 9]) ∧
    JCint.getInt [9, 0x12, 0x34, 0x56, 0x78, 9] 1 = .ok (0x1234 * 65536 + 0x5678) := by decide

end Verif.Props
