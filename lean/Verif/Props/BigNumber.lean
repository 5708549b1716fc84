import Verif.Lemmas.BigNum
/-! C31-C34: BigNumber. -/
namespace Verif.Props
open Verif.Py Verif.Model Verif.Spec

/-- `FORMAT_BCD` and `FORMAT_HEX` of the API. -/
abbrev BCD : Int := 1
abbrev HEX : Int := 2

theorem init_hex_unfold (x : BigNumber) (arr : List Int) (off n : Int) (hn : n ≠ 0) :
    x.init (some arr) off n HEX = ((BigNumber.initLoop (2 ^ 8) fromHex arr off 0 0 (rangeLen n)).1,
      { x with value := some (BigNumber.initLoop (2 ^ 8) fromHex arr off 0 0 (rangeLen n)).2 }) := by
  unfold BigNumber.init
  rw [if_neg hn]
  rfl

theorem init_bcd_unfold (x : BigNumber) (arr : List Int) (off n : Int) (hn : n ≠ 0) :
    x.init (some arr) off n BCD = ((BigNumber.initLoop 100 fromBcd arr off 0 0 (rangeLen n)).1,
      { x with value := some (BigNumber.initLoop 100 fromBcd arr off 0 0 (rangeLen n)).2 }) := by
  unfold BigNumber.init
  rw [if_neg hn]
  rfl

theorem init_hex_eq (x : BigNumber) (arr : List Int) (off n : Nat) (ds : List Nat) (hn : 0 < n)
    (h : off + n ≤ arr.length) (hs : SpellsAll (range arr off n) ds) :
    x.init (some arr) off n HEX = (.ok (), { x with value := some (positional 256 ds : Int) }) := by
  rw [init_hex_unfold x arr off n (by omega)]
  have e := BigNumber.initLoop_eq (2 ^ 8) fromHex arr off 0 off 0 (rangeLen n) rfl (by simpa [rangeLen] using h)
  rw [e]
  simp only [Nat.add_zero, rangeLen, Int.toNat_natCast]
  have f := BigNumber.fold_hex _ _ hs 0
  unfold range at f
  rw [show ((0 : Nat) : Int) = 0 from rfl] at f
  rw [f]
  rfl

theorem init_bcd_eq (x : BigNumber) (arr : List Int) (off n : Nat) (ds : List Nat) (hn : 0 < n)
    (h : off + n ≤ arr.length) (hs : SpellsBCD (range arr off n) ds) :
    x.init (some arr) off n BCD = (.ok (), { x with value := some (positional 10 ds : Int) }) := by
  rw [init_bcd_unfold x arr off n (by omega)]
  have e := BigNumber.initLoop_eq 100 fromBcd arr off 0 off 0 (rangeLen n) rfl (by simpa [rangeLen] using h)
  rw [e]
  simp only [Nat.add_zero, rangeLen, Int.toNat_natCast]
  have f := BigNumber.fold_bcd _ _ hs 0
  unfold range at f
  rw [show ((0 : Nat) : Int) = 0 from rfl] at f
  rw [f]
  rfl

/-- C31. `init` with FORMAT_HEX on a range of the array whose cells spell (signed or unsigned) the byte values `ds`
sets the value to the base-256 number `ds`, most significant byte first; nothing else changes. -/
theorem C31_hex (x : BigNumber) (arr : List Int) (off n : Nat) (ds : List Nat) (hn : 0 < n)
    (h : off + n ≤ arr.length) (hs : SpellsAll (range arr off n) ds) :
    x.init (some arr) off n HEX = (.ok (), { x with value := some (positional 256 ds : Int) }) :=
  init_hex_eq x arr off n ds hn h hs

example : SpellsAll (range [7, 1, -1, 255] 1 3) [1, 255, 255] ∧ positional 256 [1, 255, 255] = 131071 := by
  simp [SpellsAll, Spells, range, positional]

/-- C31. `init` with FORMAT_BCD on a range whose cells spell the packed decimal digits `ds` sets the value to the
decimal number `ds`. -/
theorem C31_bcd (x : BigNumber) (arr : List Int) (off n : Nat) (ds : List Nat) (hn : 0 < n)
    (h : off + n ≤ arr.length) (hs : SpellsBCD (range arr off n) ds) :
    x.init (some arr) off n BCD = (.ok (), { x with value := some (positional 10 ds : Int) }) :=
  init_bcd_eq x arr off n ds hn h hs

example : SpellsBCD (range [0, 0x12, -103] 1 2) [1, 2, 9, 9] ∧ positional 10 [1, 2, 9, 9] = 1299 := by
  simp [SpellsBCD, Spells, range, positional]

/-- C31. Length 0 is an ArithmeticException and leaves the number as it was. -/
theorem C31_length_zero (x : BigNumber) (a : Option (List Int)) (off fmt : Int) :
    x.init a off 0 fmt = (.error .arithmetic, x) := by
  simp [BigNumber.init]

/-- C31. A missing array is a NullPointerException and leaves the number as it was. -/
theorem C31_null (x : BigNumber) (off n fmt : Int) (hn : n ≠ 0) :
    x.init none off n fmt = (.error .nullPointer, x) := by
  simp [BigNumber.init, hn]

/-- C31. A format other than BCD and HEX is an ArithmeticException and leaves the number as it was. -/
theorem C31_unknown_format (x : BigNumber) (arr : List Int) (off n fmt : Int) (h1 : fmt ≠ BCD) (h2 : fmt ≠ HEX) :
    x.init (some arr) off n fmt = (.error .arithmetic, x) := by
  simp only [BigNumber.init]
  split
  · rfl
  · rw [if_neg (show ¬ fmt = BigNumber.FORMAT_BCD from h1), if_neg (show ¬ fmt = BigNumber.FORMAT_HEX from h2)]

/-- C31, what the code does beyond the documented cases: a range that runs past the end of the array raises
Python's IndexError - not a Java Card exception - and the value the number had is lost: it becomes the bytes up to
the end of the array, followed by one zero byte. -/
theorem C31_overrun_destroys (x : BigNumber) (arr : List Int) (off n : Nat) (ds : List Nat)
    (h : arr.length < off + n) (ho : off ≤ arr.length) (hs : SpellsAll (arr.drop off) ds) :
    x.init (some arr) off n HEX = (.error .indexError, { x with value := some (positional 256 (ds ++ [0]) : Int) }) := by
  rw [init_hex_unfold x arr off n (by omega)]
  have e := BigNumber.initLoop_out (2 ^ 8) fromHex arr off 0 off 0 (rangeLen n) rfl (by simpa [rangeLen] using h) (by omega)
  rw [e]
  simp only [Nat.add_zero]
  have f := BigNumber.fold_hex _ _ hs 0
  rw [show ((0 : Nat) : Int) = 0 from rfl] at f
  rw [f, BigNumber.positional_snoc]
  simp only [positional, Nat.add_zero, Int.natCast_mul]
  rfl

example : (BigNumber.mk none (some 5)).init (some [1, 2]) 0 3 HEX = (.error .indexError, ⟨none, some 0x010200⟩) :=
  C31_overrun_destroys _ [1, 2] 0 3 [1, 2] (by decide) (by decide) (by simp [SpellsAll, Spells])

/-- C31. The same with FORMAT_BCD: the digits up to the end of the array, followed by two zero digits. -/
theorem C31_bcd_overrun_destroys (x : BigNumber) (arr : List Int) (off n : Nat) (ds : List Nat)
    (h : arr.length < off + n) (ho : off ≤ arr.length) (hs : SpellsBCD (arr.drop off) ds) :
    x.init (some arr) off n BCD = (.error .indexError, { x with value := some (positional 10 (ds ++ [0, 0]) : Int) }) := by
  rw [init_bcd_unfold x arr off n (by omega)]
  have e := BigNumber.initLoop_out 100 fromBcd arr off 0 off 0 (rangeLen n) rfl (by simpa [rangeLen] using h) (by omega)
  rw [e]
  simp only [Nat.add_zero]
  have f := BigNumber.fold_bcd _ _ hs 0
  rw [show ((0 : Nat) : Int) = 0 from rfl] at f
  rw [f, show ds ++ [0, 0] = (ds ++ [0]) ++ [0] by simp, BigNumber.positional_snoc, BigNumber.positional_snoc]
  simp only [positional, Nat.add_zero, Int.natCast_mul, Int.mul_assoc]
  rfl

/-- C31. With an offset past the end nothing is read: the value becomes 0. -/
theorem C31_offset_past_end (x : BigNumber) (arr : List Int) (off n : Nat) (fmt : Int) (hf : fmt = BCD ∨ fmt = HEX) (hn : 0 < n)
    (ho : arr.length ≤ off) :
    x.init (some arr) off n fmt = (.error .indexError, { x with value := some 0 }) := by
  have key : ∀ base conv, BigNumber.initLoop base conv arr off 0 0 (rangeLen n) = (.error .indexError, 0) := by
    intro base conv
    obtain ⟨m, rfl⟩ : ∃ m, n = m + 1 := ⟨n - 1, by omega⟩
    rw [show rangeLen ((m + 1 : Nat) : Int) = m + 1 by simp [rangeLen]]
    unfold BigNumber.initLoop
    have : Verif.Py.get arr ((off : Int) + (0 : Nat)) = .error .indexError := by
      unfold Verif.Py.get Verif.Py.idx
      rw [if_pos (by omega), if_neg (by omega)]
    rw [this]
    simp
  rcases hf with rfl | rfl
  · rw [init_bcd_unfold x arr off n (by omega), key]
  · rw [init_hex_unfold x arr off n (by omega), key]

example : (BigNumber.mk none (some 5)).init (some [0x12, 0x34]) 1 3 BCD = (.error .indexError, ⟨none, some 3400⟩) :=
  C31_bcd_overrun_destroys _ [0x12, 0x34] 1 3 [3, 4] (by decide) (by decide) (by simp [SpellsBCD, Spells])
example : (BigNumber.mk none (some 5)).init (some [1, 2]) 4 1 HEX = (.error .indexError, ⟨none, some 0⟩) :=
  C31_offset_past_end _ [1, 2] 4 1 HEX (Or.inr rfl) (by decide) (by decide)

/-- C31, no digit check: with FORMAT_BCD the nibbles are not checked to be decimal: a byte spelling `16 h + l`
counts for `10 h + l` whatever `h, l < 16`. -/
theorem C31_bcd_nibbles_unchecked (x : BigNumber) (b : Int) (h l : Nat) (hh : h < 16) (hl : l < 16) (hs : Spells b (16 * h + l)) :
    x.init (some [b]) 0 1 BCD = (.ok (), { x with value := some (10 * h + l : Nat) }) := by
  have := BigNumber.fromBcd_eq b h l hh hl hs
  rw [init_bcd_unfold x [b] 0 1 (by decide)]
  have e : BigNumber.initLoop 100 fromBcd [b] 0 0 0 (rangeLen 1) = (.ok (), 0 * 100 + fromBcd b) := rfl
  rw [e, this, Int.zero_mul, Int.zero_add]

example : (BigNumber.mk none none).init (some [-1]) 0 1 BCD = (.ok (), ⟨none, some 165⟩) :=
  C31_bcd_nibbles_unchecked _ (-1) 15 15 (by decide) (by decide) (by simp [Spells])

/-! ### C32 -/

/-- What a successful `toBytes` leaves: only the range is written, with signed bytes spelling `ds`. -/
def WritesNumber (base : Nat) (spells : List Int → List Nat → Prop) (buf buf' : List Int) (off n v : Nat) : Prop :=
  ∃ bs ds, bs.length = n ∧ Written buf buf' off bs ∧ Bytes bs ∧ spells bs ds ∧ positional base ds = v

theorem range_of_written {buf buf' : List Int} {off : Nat} {bs : List Int} (h : Written buf buf' off bs) :
    range buf' off bs.length = bs := by
  have hle := h.1
  rw [written_iff hle] at h
  subst h
  unfold range splice
  rw [List.append_assoc, List.drop_append]
  have : (List.take off buf).length = off := by simp; omega
  rw [this]
  simp

theorem toBytes_hex_ok (x : BigNumber) (v : Nat) (hx : x.value = some (v : Int)) (buf : List Int) (off n : Nat)
    (hv : v < 256 ^ n) (hr : off + n ≤ buf.length) :
    ∃ buf', x.toBytes buf off n HEX = (.ok (), buf') ∧ WritesNumber 256 SpellsAll buf buf' off n v := by
  obtain ⟨m, v'⟩ := x
  subst hx
  obtain ⟨hlen, hpos, hlt⟩ := BigNumber.outDigits_props 256 (by omega) v n hv
  have e := BigNumber.outBytes_eq 256 toHex (by decide) v n
  have hl : (BigNumber.outBytes 256 toHex v n).length = n := by rw [e]; simpa using hlen
  refine ⟨splice buf off (BigNumber.outBytes 256 toHex v n), ?_, BigNumber.outBytes 256 toHex v n, BigNumber.outDigits 256 v n, hl, ?_, ?_, ?_, hpos⟩
  · have := BigNumber.toBytes_hex m v buf off n
    rw [show HEX = BigNumber.FORMAT_HEX from rfl, this, if_pos hv]
    have := arrayCopy_ok (BigNumber.outBytes 256 toHex v n) buf 0 off n (by omega) hr
    rw [show ((0 : Nat) : Int) = 0 from rfl] at this
    rw [this, List.drop_zero, List.take_of_length_le (by omega)]
  · exact written_splice _ _ _ (by omega)
  · intro b hb
    rw [e] at hb
    obtain ⟨d, hd, rfl⟩ := List.mem_map.1 hb
    exact (BigNumber.toHex_spells d (hlt d hd)).2
  · rw [e]; exact BigNumber.spellsAll_map _ hlt

theorem toBytes_bcd_ok (x : BigNumber) (v : Nat) (hx : x.value = some (v : Int)) (buf : List Int) (off n : Nat)
    (hv : v < 100 ^ n) (hr : off + n ≤ buf.length) :
    ∃ buf', x.toBytes buf off n BCD = (.ok (), buf') ∧ WritesNumber 10 SpellsBCD buf buf' off n v := by
  obtain ⟨m, v'⟩ := x
  subst hx
  obtain ⟨hlen, hpos, hlt⟩ := BigNumber.outDigits_props 100 (by omega) v n hv
  have e := BigNumber.outBytes_eq 100 toBcd (by decide) v n
  have hl : (BigNumber.outBytes 100 toBcd v n).length = n := by rw [e]; simpa using hlen
  refine ⟨splice buf off (BigNumber.outBytes 100 toBcd v n), ?_, BigNumber.outBytes 100 toBcd v n, BigNumber.pairs (BigNumber.outDigits 100 v n), hl, ?_, ?_, ?_, ?_⟩
  · have := BigNumber.toBytes_bcd m v buf off n
    rw [show BCD = BigNumber.FORMAT_BCD from rfl, this, if_pos hv]
    have := arrayCopy_ok (BigNumber.outBytes 100 toBcd v n) buf 0 off n (by omega) hr
    rw [show ((0 : Nat) : Int) = 0 from rfl] at this
    rw [this, List.drop_zero, List.take_of_length_le (by omega)]
  · exact written_splice _ _ _ (by omega)
  · intro b hb
    rw [e] at hb
    obtain ⟨d, hd, rfl⟩ := List.mem_map.1 hb
    exact (BigNumber.toBcd_spells d (hlt d hd)).2
  · rw [e]; exact BigNumber.spellsBCD_map _ hlt
  · rw [BigNumber.positional_pairs]; exact hpos

/-- C32. `toBytes` in either format succeeds exactly when the value fits the given number of bytes and the range
fits the buffer. -/
theorem C32_succeeds_iff (x : BigNumber) (v : Nat) (hx : x.value = some (v : Int)) (buf : List Int) (off n : Nat) :
    ((x.toBytes buf off n HEX).1 = .ok () ↔ v < 256 ^ n ∧ (n = 0 ∨ off + n ≤ buf.length)) ∧
    ((x.toBytes buf off n BCD).1 = .ok () ↔ v < 100 ^ n ∧ (n = 0 ∨ off + n ≤ buf.length)) := by
  obtain ⟨m, v'⟩ := x
  subst hx
  have key : ∀ base conv, 2 ≤ base → conv 0 = 0 → v < base ^ n →
      ((Util.arrayCopy (BigNumber.outBytes base conv v n) 0 buf off n).1 = .ok () ↔ (n = 0 ∨ off + n ≤ buf.length)) := by
    intro base conv hb h0 hv
    have hl : (BigNumber.outBytes base conv v n).length = n := by
      rw [BigNumber.outBytes_eq base conv h0 v n]; simpa using (BigNumber.outDigits_props base hb v n hv).1
    have := arrayCopy_eq (BigNumber.outBytes base conv v n) buf 0 off n
    rw [show ((0 : Nat) : Int) = 0 from rfl] at this
    rw [this]
    simp only [hl, Nat.sub_zero]
    split
    · simp; omega
    · simp; omega
  constructor
  · rw [show HEX = BigNumber.FORMAT_HEX from rfl, BigNumber.toBytes_hex]
    split
    · next h => simp only [h, true_and]; exact key 256 toHex (by omega) (by decide) h
    · next h => simp [h]
  · rw [show BCD = BigNumber.FORMAT_BCD from rfl, BigNumber.toBytes_bcd]
    split
    · next h => simp only [h, true_and]; exact key 100 toBcd (by omega) (by decide) h
    · next h => simp [h]

/-- C32. FORMAT_HEX: on success exactly the range is written, with signed bytes that spell the value in base 256. -/
theorem C32_hex (x : BigNumber) (v : Nat) (hx : x.value = some (v : Int)) (buf : List Int) (off n : Nat)
    (hv : v < 256 ^ n) (hr : off + n ≤ buf.length) :
    ∃ buf', x.toBytes buf off n HEX = (.ok (), buf') ∧ WritesNumber 256 SpellsAll buf buf' off n v :=
  toBytes_hex_ok x v hx buf off n hv hr

example : (BigNumber.mk none (some 0x1ff)).toBytes [9, 9, 9, 9, 9] 1 3 HEX = (.ok (), [9, 0, 1, -1, 9]) := by rfl

/-- C32. FORMAT_BCD: on success exactly the range is written, with signed bytes that spell the value in packed decimal. -/
theorem C32_bcd (x : BigNumber) (v : Nat) (hx : x.value = some (v : Int)) (buf : List Int) (off n : Nat)
    (hv : v < 100 ^ n) (hr : off + n ≤ buf.length) :
    ∃ buf', x.toBytes buf off n BCD = (.ok (), buf') ∧ WritesNumber 10 SpellsBCD buf buf' off n v :=
  toBytes_bcd_ok x v hx buf off n hv hr

example : (BigNumber.mk none (some 1299)).toBytes [9, 9, 9, 9, 9] 1 3 BCD = (.ok (), [9, 0, 0x12, -103, 9]) := by rfl

/-- C32. A value that does not fit is an ArithmeticException and the buffer is untouched. -/
theorem C32_too_big (x : BigNumber) (v : Nat) (hx : x.value = some (v : Int)) (buf : List Int) (off : Int) (n : Nat) :
    (256 ^ n ≤ v → x.toBytes buf off n HEX = (.error .arithmetic, buf)) ∧
    (100 ^ n ≤ v → x.toBytes buf off n BCD = (.error .arithmetic, buf)) := by
  obtain ⟨m, v'⟩ := x
  subst hx
  constructor
  · intro h; rw [show HEX = BigNumber.FORMAT_HEX from rfl, BigNumber.toBytes_hex, if_neg (by omega)]
  · intro h; rw [show BCD = BigNumber.FORMAT_BCD from rfl, BigNumber.toBytes_bcd, if_neg (by omega)]

/-- C32. A range that does not fit the buffer is an ArrayIndexOutOfBoundsException. -/
theorem C32_out_of_range (x : BigNumber) (v : Nat) (hx : x.value = some (v : Int)) (buf : List Int) (off n : Nat)
    (hn : 0 < n) (hr : buf.length < off + n) :
    (v < 256 ^ n → (x.toBytes buf off n HEX).1 = .error .arrayIndexOutOfBounds) ∧
    (v < 100 ^ n → (x.toBytes buf off n BCD).1 = .error .arrayIndexOutOfBounds) := by
  obtain ⟨m, v'⟩ := x
  subst hx
  have key : ∀ src, (Util.arrayCopy src 0 buf off n).1 = .error .arrayIndexOutOfBounds := by
    intro src
    have := arrayCopy_eq src buf 0 off n
    rw [show ((0 : Nat) : Int) = 0 from rfl] at this
    rw [this]
    simp only
    rw [if_neg (by omega)]
  constructor
  · intro h; rw [show HEX = BigNumber.FORMAT_HEX from rfl, BigNumber.toBytes_hex, if_pos h]; exact key _
  · intro h; rw [show BCD = BigNumber.FORMAT_BCD from rfl, BigNumber.toBytes_bcd, if_pos h]; exact key _

/-- C32. Round trip: whatever `toBytes` wrote, `init` of any number on the same range reads back the value. -/
theorem C32_init_toBytes (x y : BigNumber) (v : Nat) (hx : x.value = some (v : Int)) (buf buf' : List Int) (off n : Nat)
    (fmt : Int) (hf : fmt = HEX ∨ fmt = BCD) (hn : 0 < n) (h : x.toBytes buf off n fmt = (.ok (), buf')) :
    y.init (some buf') off n fmt = (.ok (), { y with value := some (v : Int) }) := by
  have hs := C32_succeeds_iff x v hx buf off n
  rcases hf with rfl | rfl
  · rw [h] at hs
    obtain ⟨h1, h2⟩ := hs.1.1 rfl
    obtain ⟨b2, e, bs, ds, hl, hw, hb, hsp, hp⟩ := toBytes_hex_ok x v hx buf off n h1 (by omega)
    rw [e] at h
    injection h with _ h
    subst h
    have hr := range_of_written hw
    rw [hl] at hr
    rw [init_hex_eq y b2 off n ds hn (by rw [hw.2.1]; omega) (by rw [hr]; exact hsp), hp]
  · rw [h] at hs
    obtain ⟨h1, h2⟩ := hs.2.1 rfl
    obtain ⟨b2, e, bs, ds, hl, hw, hb, hsp, hp⟩ := toBytes_bcd_ok x v hx buf off n h1 (by omega)
    rw [e] at h
    injection h with _ h
    subst h
    have hr := range_of_written hw
    rw [hl] at hr
    rw [init_bcd_eq y b2 off n ds hn (by rw [hw.2.1]; omega) (by rw [hr]; exact hsp), hp]

/-- Signed bytes are determined by the packed decimal digits they spell. -/
theorem spellsBCD_props {bs : List Int} {ds : List Nat} (h : SpellsBCD bs ds) :
    ds.length = 2 * bs.length ∧ ∀ d ∈ ds, d < 10 := by
  induction bs generalizing ds with
  | nil => cases ds with
    | nil => simp
    | cons => exact absurd h id
  | cons b bs ih =>
    match ds, h with
    | x :: y :: ds, h =>
      obtain ⟨h1, h2, h3, h4⟩ := h
      obtain ⟨i1, i2⟩ := ih h4
      refine ⟨by simp [i1]; omega, ?_⟩
      intro d hd
      rcases List.mem_cons.1 hd with rfl | hd
      · exact h1
      rcases List.mem_cons.1 hd with rfl | hd
      · exact h2
      · exact i2 d hd

theorem spellsBCD_inj {as bs : List Int} {ds : List Nat} (ha : SpellsBCD as ds) (hb : SpellsBCD bs ds)
    (sa : Bytes as) (sb : Bytes bs) : as = bs := by
  induction as generalizing bs ds with
  | nil =>
    have e := (spellsBCD_props ha).1
    have e2 := (spellsBCD_props hb).1
    simp at e
    subst e
    cases bs with
    | nil => rfl
    | cons => simp at e2
  | cons a as ih =>
    match ds, ha with
    | x :: y :: ds, ha =>
      cases bs with
      | nil => exact absurd hb id
      | cons b bs =>
        obtain ⟨h1, h2, h3, h4⟩ := ha
        obtain ⟨k1, k2, k3, k4⟩ := hb
        have b1 := sa a List.mem_cons_self
        have b2 := sb b List.mem_cons_self
        unfold Spells at h3 k3
        unfold IsByte at b1 b2
        have : a = b := by omega
        subst this
        congr 1
        exact ih h4 k4 (fun x hx => sa x (List.mem_cons_of_mem _ hx)) (fun x hx => sb x (List.mem_cons_of_mem _ hx))

theorem written_same {arr buf buf' : List Int} {off o n : Nat} (h : Written buf buf' o (range arr off n)) :
    range buf' o (range arr off n).length = range arr off n := range_of_written h

/-- C32. Conversely, reading `n` signed bytes and writing the number back into `n` bytes reproduces those bytes. -/
theorem C32_toBytes_init_hex (x : BigNumber) (arr buf : List Int) (off o n : Nat) (hn : 0 < n) (h : off + n ≤ arr.length)
    (ho : o + n ≤ buf.length) (hb : Bytes (range arr off n)) :
    ∃ x' buf', x.init (some arr) off n HEX = (.ok (), x') ∧ x'.toBytes buf o n HEX = (.ok (), buf') ∧
      Written buf buf' o (range arr off n) := by
  have hlen : (range arr off n).length = n := by simp [range]; omega
  have hsp : SpellsAll (range arr off n) ((range arr off n).map fun b => (b % 256).toNat) := by
    generalize range arr off n = l at hb
    clear hlen
    induction l with
    | nil => trivial
    | cons b l ih =>
      refine ⟨?_, ih fun x hx => hb x (List.mem_cons_of_mem _ hx)⟩
      have := hb b List.mem_cons_self
      unfold IsByte at this
      show (b % 256).toNat < 256 ∧ (b = ((b % 256).toNat : Int) ∨ (128 ≤ (b % 256).toNat ∧ b = ((b % 256).toNat : Int) - 256))
      omega
  generalize (range arr off n).map (fun b => (b % 256).toNat) = ds at hsp
  have e := init_hex_eq x arr off n ds hn h hsp
  have hdl := BigNumber.spellsAll_length hsp
  have hlt := BigNumber.positional_lt 256 ds (BigNumber.spellsAll_lt hsp)
  rw [← hdl, hlen] at hlt
  obtain ⟨b2, e2, bs, ds2, hl, hw, hbb, hsp2, hp⟩ := toBytes_hex_ok { x with value := some (positional 256 ds : Int) } (positional 256 ds) rfl buf o n hlt ho
  refine ⟨_, b2, e, e2, ?_⟩
  have hdl2 := BigNumber.spellsAll_length hsp2
  have : ds2 = ds := BigNumber.positional_inj 256 ds2 ds (BigNumber.spellsAll_lt hsp2) (BigNumber.spellsAll_lt hsp) (by omega) hp
  subst this
  rwa [← BigNumber.spellsAll_inj hsp2 hsp hbb hb]

theorem C32_toBytes_init_bcd (x : BigNumber) (arr buf : List Int) (off o n : Nat) (ds : List Nat) (hn : 0 < n)
    (h : off + n ≤ arr.length) (ho : o + n ≤ buf.length) (hb : Bytes (range arr off n)) (hs : SpellsBCD (range arr off n) ds) :
    ∃ x' buf', x.init (some arr) off n BCD = (.ok (), x') ∧ x'.toBytes buf o n BCD = (.ok (), buf') ∧
      Written buf buf' o (range arr off n) := by
  have hlen : (range arr off n).length = n := by simp [range]; omega
  have e := init_bcd_eq x arr off n ds hn h hs
  obtain ⟨hdl, hd10⟩ := spellsBCD_props hs
  have hlt := BigNumber.positional_lt 10 ds hd10
  rw [hdl, hlen, Nat.pow_mul] at hlt
  obtain ⟨b2, e2, bs, ds2, hl, hw, hbb, hsp2, hp⟩ := toBytes_bcd_ok { x with value := some (positional 10 ds : Int) } (positional 10 ds) rfl buf o n hlt ho
  refine ⟨_, b2, e, e2, ?_⟩
  obtain ⟨hdl2, hd102⟩ := spellsBCD_props hsp2
  have : ds2 = ds := BigNumber.positional_inj 10 ds2 ds hd102 hd10 (by omega) hp
  subst this
  rwa [← spellsBCD_inj hsp2 hs hbb hb]

/-! ### C33 -/

/-- C33. With an operand that spells the number `o` (read from any range, in either format), add, subtract and
multiply replace the value by the exact sum, difference, product - of any size, whatever the number's maxBytes. -/
theorem C33_exact (x : BigNumber) (v : Int) (hx : x.value = some v) (arr : List Int) (off n : Nat) (fmt : Int) (o : Nat)
    (hn : 0 < n) (h : off + n ≤ arr.length)
    (ho : (fmt = HEX ∧ ∃ ds, SpellsAll (range arr off n) ds ∧ positional 256 ds = o) ∨
          (fmt = BCD ∧ ∃ ds, SpellsBCD (range arr off n) ds ∧ positional 10 ds = o)) :
    x.add (some arr) off n fmt = (.ok (), { x with value := some (v + o) }) ∧
    x.subtract (some arr) off n fmt = (.ok (), { x with value := some (v - o) }) ∧
    x.multiply (some arr) off n fmt = (.ok (), { x with value := some (v * o) }) := by
  have hop : BigNumber.operand (some arr) off n fmt = .ok (o : Int) := by
    unfold BigNumber.operand
    rcases ho with ⟨rfl, ds, h1, h2⟩ | ⟨rfl, ds, h1, h2⟩
    · rw [init_hex_eq _ arr off n ds hn h h1, h2]
    · rw [init_bcd_eq _ arr off n ds hn h h1, h2]
  simp [BigNumber.add, BigNumber.subtract, BigNumber.multiply, BigNumber.combine, hop, hx]

example : (BigNumber.mk (some 1) (some 255)).multiply (some [-1, -1]) 0 2 HEX = (.ok (), ⟨some 1, some (255 * 65535)⟩) :=
  (C33_exact ⟨some 1, some 255⟩ 255 rfl [-1, -1] 0 2 HEX 65535 (by decide) (by decide)
    (.inl ⟨rfl, [255, 255], by simp [SpellsAll, Spells, range], by decide⟩)).2.2

/-- C33. An operand that `init` refuses makes add, subtract and multiply raise the same exception, and the number is
unchanged. -/
theorem C33_bad_operand (x y : BigNumber) (a : Option (List Int)) (off n fmt : Int) (e : Err)
    (h : (y.init a off n fmt).1 = .error e) :
    x.add a off n fmt = (.error e, x) ∧ x.subtract a off n fmt = (.error e, x) ∧ x.multiply a off n fmt = (.error e, x) := by
  have hi : ∀ y z : BigNumber, (y.init a off n fmt).1 = (z.init a off n fmt).1 := by
    intro y z
    unfold BigNumber.init
    split
    · rfl
    · cases a with
      | none => rfl
      | some arr => simp only; split; rfl; split <;> rfl
  have hop : BigNumber.operand a off n fmt = .error e := by
    unfold BigNumber.operand
    have := hi ⟨none, none⟩ y
    rw [h] at this
    split
    · next e' _ he => rw [he] at this; injection this with this; rw [this]
    · next he => rw [he] at this; simp at this
  simp [BigNumber.add, BigNumber.subtract, BigNumber.multiply, BigNumber.combine, hop]

/-- C33. Before `init`, arithmetic raises Python's TypeError. -/
theorem C33_uninitialised (x : BigNumber) (hx : x.value = none) (arr : List Int) (off n : Nat) (ds : List Nat)
    (hn : 0 < n) (h : off + n ≤ arr.length) (hs : SpellsAll (range arr off n) ds) :
    x.add (some arr) off n HEX = (.error .typeError, x) ∧ x.subtract (some arr) off n HEX = (.error .typeError, x) ∧
    x.multiply (some arr) off n HEX = (.error .typeError, x) := by
  have hop : BigNumber.operand (some arr) off n HEX = .ok (positional 256 ds : Int) := by
    unfold BigNumber.operand
    rw [init_hex_eq _ arr off n ds hn h hs]
  simp [BigNumber.add, BigNumber.subtract, BigNumber.multiply, BigNumber.combine, hop, hx]

/-- C33. Subtraction can make the value negative; `toBytes` then writes zeros and reports success. -/
theorem C33_negative_written_as_zero (x : BigNumber) (v : Int) (hx : x.value = some v) (hv : v < 0) (buf : List Int)
    (off n : Nat) (fmt : Int) (hf : fmt = HEX ∨ fmt = BCD) (hr : off + n ≤ buf.length) :
    ∃ buf', x.toBytes buf off n fmt = (.ok (), buf') ∧ Written buf buf' off (List.replicate n 0) := by
  have hd : ∀ b c, BigNumber.digits b c v = [] := by
    intro b c
    unfold BigNumber.digits
    have : v.toNat = 0 := by omega
    rw [this]; rfl
  refine ⟨splice buf off (List.replicate n 0), ?_, written_splice _ _ _ (by simpa using hr)⟩
  have hc := arrayCopy_ok (List.replicate n 0) buf 0 off n (by simp) hr
  rw [show ((0 : Nat) : Int) = 0 from rfl] at hc
  rw [List.drop_zero, List.take_of_length_le (by simp)] at hc
  rw [← hc]
  unfold BigNumber.toBytes
  rcases hf with rfl | rfl
  · rw [if_pos (by right; rfl), hx]
    simp [BigNumber.FORMAT_BCD, hd, fresh, rangeLen]
    omega
  · rw [if_pos (by left; rfl), hx]
    simp [BigNumber.FORMAT_BCD, hd, fresh, rangeLen]
    omega

example : ((BigNumber.mk none (some 1)).subtract (some [2]) 0 1 HEX).2.toBytes [7, 7] 0 1 HEX = (.ok (), [0, 7]) := by rfl

/-- C33. maxBytes is checked to be positive when the number is made, and never again. -/
theorem C33_max_bytes (m : Option Int) :
    (∀ k, m = some k → k ≤ 0 → BigNumber.new m = .error .arithmetic) ∧
    ((∀ k, m = some k → 0 < k) → BigNumber.new m = .ok ⟨m, none⟩) := by
  constructor
  · rintro k rfl hk; simp [BigNumber.new, hk]
  · intro h
    cases m with
    | none => rfl
    | some k => have := h k rfl; simp [BigNumber.new]; omega

/-! ### C34 -/

/-- C34. `compareTo` is 1, 0 or -1 exactly as the values compare. -/
theorem C34_compare (x y : BigNumber) (a b : Int) (hx : x.value = some a) (hy : y.value = some b) :
    (x.compareTo y = .ok 0 ↔ a = b) ∧ (x.compareTo y = .ok 1 ↔ b < a) ∧ (x.compareTo y = .ok (-1) ↔ a < b) ∧
    (x.compareTo y = .ok 0 ∨ x.compareTo y = .ok 1 ∨ x.compareTo y = .ok (-1)) := by
  unfold BigNumber.compareTo
  rw [hx, hy]
  simp only [Option.some.injEq]
  by_cases h1 : a = b
  · rw [if_pos h1]; simp; omega
  · rw [if_neg h1]
    by_cases h2 : a > b
    · rw [if_pos h2]; simp; omega
    · rw [if_neg h2]; simp; omega

/-- C34. Antisymmetric: swapping the arguments negates the result. -/
theorem C34_antisymmetric (x y : BigNumber) (hx : x.value ≠ none) (hy : y.value ≠ none) :
    ∃ r, x.compareTo y = .ok r ∧ y.compareTo x = .ok (-r) := by
  obtain ⟨a, ha⟩ := Option.ne_none_iff_exists'.1 hx
  obtain ⟨b, hb⟩ := Option.ne_none_iff_exists'.1 hy
  obtain ⟨p1, p2, p3, p4⟩ := C34_compare x y a b ha hb
  obtain ⟨q1, q2, q3, q4⟩ := C34_compare y x b a hb ha
  rcases p4 with h | h | h
  · exact ⟨0, h, q1.2 (p1.1 h).symm⟩
  · exact ⟨1, h, q3.2 (p2.1 h)⟩
  · exact ⟨-1, h, q2.2 (p3.1 h)⟩

/-- C34. Transitive. -/
theorem C34_transitive (x y z : BigNumber) (hx : x.value ≠ none) (hy : y.value ≠ none) (hz : z.value ≠ none)
    (h1 : x.compareTo y ≠ .ok 1) (h2 : y.compareTo z ≠ .ok 1) : x.compareTo z ≠ .ok 1 := by
  obtain ⟨a, ha⟩ := Option.ne_none_iff_exists'.1 hx
  obtain ⟨b, hb⟩ := Option.ne_none_iff_exists'.1 hy
  obtain ⟨c, hc⟩ := Option.ne_none_iff_exists'.1 hz
  have p := (C34_compare x y a b ha hb).2.1
  have q := (C34_compare y z b c hb hc).2.1
  have r := (C34_compare x z a c ha hc).2.1
  rw [Ne, r]
  rw [Ne, p] at h1
  rw [Ne, q] at h2
  omega

/-- C34. The array form agrees with making a number from the array and comparing with it. -/
theorem C34_array_form (x y y' : BigNumber) (a : Option (List Int)) (off n fmt : Int) :
    (y.init a off n fmt = (.ok (), y') → x.compareToArray a off n fmt = x.compareTo y') ∧
    (∀ e, y.init a off n fmt = (.error e, y') → x.compareToArray a off n fmt = .error e) := by
  have hi : (BigNumber.init ⟨none, none⟩ a off n fmt).1 = (y.init a off n fmt).1 ∧
      ((y.init a off n fmt).1 = .ok () → (BigNumber.init ⟨none, none⟩ a off n fmt).2.value = (y.init a off n fmt).2.value ∧
        (y.init a off n fmt).2.value ≠ none) := by
    unfold BigNumber.init
    split
    · simp
    · cases a with
      | none => simp
      | some arr => simp only; split; simp; split <;> simp
  obtain ⟨h1, h2⟩ := hi
  constructor
  · intro h
    rw [h] at h1 h2
    obtain ⟨h3, h4⟩ := h2 rfl
    obtain ⟨w, hw⟩ := Option.ne_none_iff_exists'.1 h4
    have hop : BigNumber.operand a off n fmt = .ok w := by
      unfold BigNumber.operand
      generalize BigNumber.init ⟨none, none⟩ a off n fmt = r at h1 h3
      obtain ⟨r1, r2⟩ := r
      simp only at h1 h3 hw
      subst h1
      simp only [h3, hw]
    simp only [BigNumber.compareToArray, hop, BigNumber.compareTo]
    rw [hw]
  · intro e h
    rw [h] at h1
    have hop : BigNumber.operand a off n fmt = .error e := by
      unfold BigNumber.operand
      generalize BigNumber.init ⟨none, none⟩ a off n fmt = r at h1
      obtain ⟨r1, r2⟩ := r
      simp only at h1
      subst h1
      rfl
    simp only [BigNumber.compareToArray, hop]

example : (BigNumber.mk none (some 300)).compareToArray (some [1, 43]) 0 2 HEX = .ok 1 := by rfl

/-- C34. Comparing an initialised number with one that was not initialised is a TypeError. -/
theorem C34_uninitialised (x y : BigNumber) (hx : x.value ≠ none) (hy : y.value = none) :
    x.compareTo y = .error .typeError ∧ y.compareTo x = .error .typeError := by
  obtain ⟨a, ha⟩ := Option.ne_none_iff_exists'.1 hx
  simp [BigNumber.compareTo, ha, hy]

/-- C32. `getMaxBytesSupported()` answers 20, but no number is refused for its size: every string of bytes, also one longer than that, can be loaded and
written back. -/
theorem C32_max_bytes_is_no_bound :
    BigNumber.getMaxBytesSupported = 20 ∧
    ∀ (x : BigNumber) (bytes buf : List Int), BigNumber.getMaxBytesSupported < bytes.length → Bytes bytes → buf.length = bytes.length →
      ∃ x', x.init (some bytes) 0 bytes.length HEX = (.ok (), x') ∧ x'.toBytes buf 0 bytes.length HEX = (.ok (), bytes) := by
  refine ⟨rfl, fun x bytes buf hl hb hlen => ?_⟩
  have hl : 0 < bytes.length := by
    have : (20 : Int) < bytes.length := hl
    omega
  have hr : range bytes 0 bytes.length = bytes := by simp [range]
  obtain ⟨x', buf', h1, h2, h3⟩ := C32_toBytes_init_hex x bytes buf 0 0 bytes.length hl (by omega) (by omega) (by rw [hr]; exact hb)
  rw [hr] at h3
  refine ⟨x', h1, ?_⟩
  have : buf' = bytes := by
    obtain ⟨_, hlen', hin, _⟩ := h3
    refine List.ext_getElem (by omega) fun i hi hi' => ?_
    have := hin i hi'
    rw [Nat.zero_add, List.getElem?_eq_getElem hi] at this
    exact Option.some.inj this
  rw [this] at h2
  exact h2

end Verif.Props
