import Verif.Lemmas.Arrays
import Verif.Lemmas.Signed
/-! Lemmas about the APDU constructor. -/
namespace Verif.Model
open Verif.Py Verif.Spec
namespace APDU

/-- `n` zeros (kept folded: the simplifier would write out 257 of them). -/
def zeros (n : Nat) : List Int := List.replicate n 0
theorem zeros_length (n : Nat) : (zeros n).length = n := by simp [zeros]
theorem fresh_zeros : fresh (255 + 2) (0 : Int) = zeros 257 := by
  unfold zeros fresh; rfl

/-- The object the constructor builds. -/
def built (bytes : List Int) (k : Nat) (ty nc : Int) (ne : Option Int) (lel cd : Int) (br : Bool) : APDU :=
  { raw := bytes, buffer := bytes.take k ++ zeros (257 - k), offsetincoming := k,
    state := STATE_INITIAL, broken := br, cdataoffs := cd, type := ty, Nc := nc,
    Ne := ne, lelength := lel, outgoinglength := 0, cur := none }

theorem done_copy (src dst : List Int) (so d n : Nat) (h1 : so + n ≤ src.length) (h2 : d + n ≤ dst.length) :
    done (copyRange src so dst d 0 n) = .ok (splice dst d ((src.drop so).take n)) := by
  rw [copyRange_eq]
  have : min n (min (src.length - so) (dst.length - d)) = n := by omega
  simp [this, outcome, done]

/-- Buffer after copying the header and P3. -/
theorem buffer_two (bytes : List Int) (p : Nat) (h : 4 + p ≤ bytes.length) (hp : p ≤ 3) :
    splice (splice (zeros 257) 0 ((bytes.drop 0).take 4)) 4 ((bytes.drop 4).take p) =
      bytes.take (4 + p) ++ zeros (257 - (4 + p)) := by
  have hl : ((bytes.drop 0).take 4).length = 4 := by simp; omega
  have := splice_append (zeros 257) 0 ((bytes.drop 0).take 4) ((bytes.drop 4).take p)
    (by rw [hl, zeros_length]; simp; omega)
  rw [hl, Nat.zero_add] at this
  rw [this]
  have e2 : (bytes.drop 0).take 4 ++ (bytes.drop 4).take p = bytes.take (4 + p) := by
    rw [List.drop_zero, ← List.take_add]
  rw [e2]
  unfold splice
  have e3 : (bytes.take (4 + p)).length = 4 + p := by simp; omega
  rw [e3, Nat.zero_add, List.take_zero, List.nil_append]
  congr 1
  unfold zeros
  rw [List.drop_replicate]

theorem init_four (bytes : List Int) (h : bytes.length = 4) :
    init bytes = .ok (built bytes 4 1 0 none 0 5 false) := by
  have h1 : ¬ ((bytes.length : Int) < 4) := by omega
  have h2 : ¬ ((bytes.length : Int) > 4) := by omega
  have h3 : (bytes.length : Int) = 4 := by omega
  have hc := done_copy bytes (zeros 257) 0 0 4 (by omega) (by rw [zeros_length]; omega)
  have hb := buffer_two bytes 0 (by omega) (by omega)
  simp only [List.take_zero, splice_nil] at hb
  rw [hb] at hc
  unfold init
  simp only [Int.natCast_zero] at hc
  simp only [fresh_zeros, h3, if_true, bind, Except.bind, pure, Except.pure, hc, built]
  rfl

theorem init_five (bytes : List Int) (h : 5 ≤ bytes.length) :
    init bytes = (
      let n : Int := bytes.length
      let b4 := bytes[4]
      let k : Nat := if b4 = 0 ∧ 7 < n then 7 else 5
      if n = 5 ∨ (b4 = 0 ∧ n = 7) then
        match getOutLengths bytes n with
        | .error e => .error e
        | .ok (ne, l) => .ok (built bytes k 2 0 (some ne) l 5 false)
      else
        match (if n = b4 + 5 then Except.ok true else
            match getInLengths bytes with
            | .error e => Except.error e
            | .ok (nc, _) => Except.ok (decide (n = nc + 5))) with
        | .error e => .error e
        | .ok true =>
          (match getInLengths bytes with
            | .error e => .error e
            | .ok (nc, lcl) => .ok (built bytes k 3 nc none 0 (5 + (lcl - 1)) false))
        | .ok false =>
          (match getInLengths bytes with
            | .error e => .error e
            | .ok (nc, lcl) =>
              match getOutLengths bytes n with
              | .error e => .error e
              | .ok (ne, l) =>
                .ok (built bytes k 4 nc (some ne) l (5 + (lcl - 1)) (decide (4 + lcl + l + nc ≠ n))))) := by
  have h1 : ¬ ((bytes.length : Int) < 4) := by omega
  have h2 : (bytes.length : Int) > 4 := by omega
  have h3 : ¬ (bytes.length : Int) = 4 := by omega
  have hg : get bytes 4 = .ok bytes[4] := get_natCast bytes 4 (by omega)
  have hc := done_copy bytes (zeros 257) 0 0 4 (by omega) (by rw [zeros_length]; omega)
  simp only [Int.natCast_zero] at hc
  have hl : (splice (zeros 257) 0 ((bytes.drop 0).take 4)).length = 257 := by
    rw [splice_length, zeros_length]
    rw [zeros_length]; simp; omega
  unfold init
  simp only [fresh_zeros, h1, h2, h3, if_false, if_true, bind, Except.bind, pure, Except.pure, hc, hg]
  by_cases hk : bytes[4] = 0 ∧ 7 < (bytes.length : Int)
  · have hk' : bytes[4] = 0 ∧ (bytes.length : Int) > 4 + 3 := by refine ⟨hk.1, by omega⟩
    have hc2 := done_copy bytes _ 4 4 3 (by omega) (by rw [hl]; omega)
    have hb := buffer_two bytes 3 (by omega) (by omega)
    rw [hb] at hc2
    have e4 : ((4 : Nat) : Int) = 4 := rfl
    have e3 : (3 : Int).toNat = 3 := rfl
    rw [e4] at hc2
    simp only [hk', hk, and_self, if_true, e3, hc2]
    split
    · cases hq : getOutLengths bytes bytes.length <;> simp [built]
    · split
      · cases hq : getInLengths bytes <;> simp [built]
      · cases hq : getInLengths bytes
        · simp
        · simp only
          split
          · next hd => simp [hd, built]
          · next hd =>
            cases hq2 : getOutLengths bytes bytes.length <;> simp [built, hd]
  · have hk' : ¬ (bytes[4] = 0 ∧ (bytes.length : Int) > 4 + 3) := by omega
    have hc2 := done_copy bytes _ 4 4 1 (by omega) (by rw [hl]; omega)
    have hb := buffer_two bytes 1 (by omega) (by omega)
    rw [hb] at hc2
    have e4 : ((4 : Nat) : Int) = 4 := rfl
    have e3 : (1 : Int).toNat = 1 := rfl
    rw [e4] at hc2
    simp only [hk', hk, if_false, e3, hc2]
    split
    · cases hq : getOutLengths bytes bytes.length <;> simp [built]
    · split
      · cases hq : getInLengths bytes <;> simp [built]
      · cases hq : getInLengths bytes
        · simp
        · simp only
          split
          · next hd => simp [hd, built]
          · next hd =>
            cases hq2 : getOutLengths bytes bytes.length <;> simp [built, hd]

theorem getIn_short (bytes : List Int) (h : 5 ≤ bytes.length) (h0 : bytes[4] ≠ 0) :
    getInLengths bytes = .ok (u1 bytes[4], 1) := by
  have hg : get bytes 4 = .ok bytes[4] := get_natCast bytes 4 (by omega)
  unfold getInLengths
  simp [hg, bind, Except.bind, pure, Except.pure, h0]

theorem getIn_ext (bytes : List Int) (h : 7 ≤ bytes.length) (h0 : bytes[4] = 0) :
    getInLengths bytes = .ok (u1 bytes[5] * (256 : Int) + u1 bytes[6], 3) := by
  have hg : get bytes 4 = .ok bytes[4] := get_natCast bytes 4 (by omega)
  have hg5 : get bytes 5 = .ok bytes[5] := get_natCast bytes 5 (by omega)
  have hg6 : get bytes 6 = .ok bytes[6] := get_natCast bytes 6 (by omega)
  unfold getInLengths
  simp [hg, hg5, hg6, bind, Except.bind, pure, Except.pure, h0]

theorem getIn_six (bytes : List Int) (h : bytes.length = 6) (h0 : bytes[4] = 0) :
    getInLengths bytes = .error .indexError := by
  have hg : get bytes 4 = .ok bytes[4] := get_natCast bytes 4 (by omega)
  have hg5 : get bytes 5 = .ok bytes[5] := get_natCast bytes 5 (by omega)
  have hg6 : get bytes 6 = .error .indexError := get_natCast_out bytes 6 (by omega)
  unfold getInLengths
  simp [hg, hg5, hg6, bind, Except.bind, h0]

/-- Length read from a single Le byte. -/
def le1 (b : Int) : Int := if b = 0 then 256 else u1 b

theorem getOut_short (bytes : List Int) (n : Nat) (hn : bytes.length = n) (h : 5 ≤ n)
    (h0 : n = 5 ∨ bytes[4] ≠ 0) :
    getOutLengths bytes n = .ok (le1 (bytes[n - 1]'(by omega)), 1) := by
  have hg : get bytes 4 = .ok bytes[4] := get_natCast bytes 4 (by omega)
  have e : (n : Int) - 1 = ((n - 1 : Nat) : Int) := by omega
  have hl : get bytes ((n - 1 : Nat) : Int) = .ok (bytes[n - 1]'(by omega)) := get_natCast _ _ (by omega)
  unfold getOutLengths le1
  simp only [e, hl, hg, bind, Except.bind, pure, Except.pure]
  by_cases h5 : n = 5
  · have : ((n - 1 : Nat) : Int) = 4 := by omega
    simp only [this, ne_eq, not_true, if_false]
    split <;> simp
  · have : ¬ ((n - 1 : Nat) : Int) = 4 := by omega
    have h0 : bytes[4] ≠ 0 := by
      rcases h0 with h | h
      · omega
      · exact h
    simp only [this, ne_eq, not_false_eq_true, if_true, h0, if_false]
    split <;> simp

/-- Length read from two Le bytes, as the code does it, with the number of bytes. -/
def le2 (prev last : Int) : Int × Int :=
  if last = 0 then (if prev = 0 then (65536, 2) else (256, 1)) else (u1 prev * 256 + u1 last, 2)

theorem getOut_ext (bytes : List Int) (n : Nat) (hn : bytes.length = n) (h : 6 ≤ n) (h0 : bytes[4] = 0) :
    getOutLengths bytes n = .ok (le2 (bytes[n - 2]'(by omega)) (bytes[n - 1]'(by omega))) := by
  have hg : get bytes 4 = .ok bytes[4] := get_natCast bytes 4 (by omega)
  have e : (n : Int) - 1 = ((n - 1 : Nat) : Int) := by omega
  have e2 : ((n - 1 : Nat) : Int) - 1 = ((n - 2 : Nat) : Int) := by omega
  have hl : get bytes ((n - 1 : Nat) : Int) = .ok (bytes[n - 1]'(by omega)) := get_natCast _ _ (by omega)
  have hp : get bytes ((n - 2 : Nat) : Int) = .ok (bytes[n - 2]'(by omega)) := get_natCast _ _ (by omega)
  have : ¬ ((n - 1 : Nat) : Int) = 4 := by omega
  unfold getOutLengths le2
  simp only [e, e2, hl, hp, hg, bind, Except.bind, pure, Except.pure, this, ne_eq, not_false_eq_true,
    if_true, h0]
  split
  · split <;> simp
  · simp

/-! The cases of the constructor. -/

theorem init_A (bytes : List Int) (h : bytes.length = 5) :
    init bytes = .ok (built bytes 5 2 0 (some (le1 bytes[4])) 1 5 false) := by
  rw [init_five bytes (by omega)]
  have hl : (bytes.length : Int) = 5 := by omega
  have hk : ¬ (bytes[4] = 0 ∧ 7 < (bytes.length : Int)) := by omega
  have := getOut_short bytes bytes.length rfl (by omega) (.inl h)
  have e : bytes[bytes.length - 1]'(by omega) = bytes[4] := by congr 1; omega
  rw [e] at this
  simp only [hk, if_false]
  rw [if_pos (.inl hl), this]

theorem init_B (bytes : List Int) (h : bytes.length = 7) (h0 : bytes[4] = 0) :
    init bytes = .ok (built bytes 5 2 0 (some (le2 bytes[5] bytes[6]).1) (le2 bytes[5] bytes[6]).2 5 false) := by
  rw [init_five bytes (by omega)]
  have hl : (bytes.length : Int) = 7 := by omega
  have hk : ¬ (bytes[4] = 0 ∧ 7 < (bytes.length : Int)) := by omega
  have := getOut_ext bytes bytes.length rfl (by omega) h0
  have e : bytes[bytes.length - 1]'(by omega) = bytes[6] := by congr 1; omega
  have e2 : bytes[bytes.length - 2]'(by omega) = bytes[5] := by congr 1; omega
  rw [e, e2] at this
  simp only [hk, if_false]
  rw [if_pos (.inr ⟨h0, hl⟩), this]

theorem init_C (bytes : List Int) (h : 6 ≤ bytes.length) (h0 : bytes[4] ≠ 0)
    (hn : (bytes.length : Int) = u1 bytes[4] + 5) :
    init bytes = .ok (built bytes 5 3 (u1 bytes[4]) none 0 5 false) := by
  rw [init_five bytes (by omega)]
  have hk : ¬ (bytes[4] = 0 ∧ 7 < (bytes.length : Int)) := by simp [h0]
  have hc : ¬ ((bytes.length : Int) = 5 ∨ (bytes[4] = 0 ∧ (bytes.length : Int) = 7)) := by
    simp only [h0, false_and, or_false]; omega
  simp only [hk, hc, if_false, getIn_short bytes (by omega) h0]
  by_cases hb : (bytes.length : Int) = bytes[4] + 5
  · simp [hb]
  · have hd : decide ((bytes.length : Int) = u1 bytes[4] + 5) = true := by simpa using hn
    simp only [hb, if_false, hd]; rfl

theorem init_D (bytes : List Int) (h : 6 ≤ bytes.length) (h0 : bytes[4] ≠ 0)
    (hb : bytes[4] ≤ 255) (hn : (bytes.length : Int) ≠ u1 bytes[4] + 5) :
    init bytes = .ok (built bytes 5 4 (u1 bytes[4]) (some (le1 (bytes[bytes.length - 1]'(by omega)))) 1 5
      (decide ((bytes.length : Int) ≠ (6 : Int) + u1 bytes[4]))) := by
  rw [init_five bytes (by omega)]
  have hk : ¬ (bytes[4] = 0 ∧ 7 < (bytes.length : Int)) := by simp [h0]
  have hc : ¬ ((bytes.length : Int) = 5 ∨ (bytes[4] = 0 ∧ (bytes.length : Int) = 7)) := by
    simp only [h0, false_and, or_false]; omega
  have hb : ¬ (bytes.length : Int) = bytes[4] + 5 := by
    rw [u1_eq] at hn; omega
  simp only [hk, hc, if_false, hb, getIn_short bytes (by omega) h0, hn, decide_false,
    getOut_short bytes bytes.length rfl (by omega) (.inr h0)]
  have : ∀ x y : Int, (4 + 1 + 1 + x = y) ↔ (y = 6 + x) := by intros; omega
  simp only [ne_eq, this]
  rfl

theorem init_E (bytes : List Int) (h : bytes.length = 6) (h0 : bytes[4] = 0) :
    init bytes = .error .indexError := by
  rw [init_five bytes (by omega)]
  have hc : ¬ ((bytes.length : Int) = 5 ∨ (bytes[4] = 0 ∧ (bytes.length : Int) = 7)) := by omega
  have hb : ¬ (bytes.length : Int) = bytes[4] + 5 := by omega
  simp only [hc, if_false, hb, getIn_six bytes h h0]

theorem init_F (bytes : List Int) (h : 8 ≤ bytes.length) (h0 : bytes[4] = 0)
    (hn : (bytes.length : Int) = u1 bytes[5] * (256 : Int) + u1 bytes[6] + 5) :
    init bytes = .ok (built bytes 7 3 (u1 bytes[5] * (256 : Int) + u1 bytes[6]) none 0 7 false) := by
  rw [init_five bytes (by omega)]
  have hk : (bytes[4] = 0 ∧ 7 < (bytes.length : Int)) := by omega
  have hc : ¬ ((bytes.length : Int) = 5 ∨ (bytes[4] = 0 ∧ (bytes.length : Int) = 7)) := by omega
  have hb : ¬ (bytes.length : Int) = bytes[4] + 5 := by omega
  have hd : decide ((bytes.length : Int) = u1 bytes[5] * (256 : Int) + u1 bytes[6] + 5) = true := by simpa using hn
  simp only
  rw [if_neg hc, if_neg hb, if_pos hk]
  simp only [getIn_ext bytes (by omega) h0, hd]
  rfl

theorem init_G (bytes : List Int) (h : 8 ≤ bytes.length) (h0 : bytes[4] = 0)
    (hn : (bytes.length : Int) ≠ u1 bytes[5] * (256 : Int) + u1 bytes[6] + 5) :
    init bytes = .ok (
      let l := le2 (bytes[bytes.length - 2]'(by omega)) (bytes[bytes.length - 1]'(by omega))
      built bytes 7 4 (u1 bytes[5] * (256 : Int) + u1 bytes[6]) (some l.1) l.2 7
      (decide ((bytes.length : Int) ≠ (7 : Int) + l.2 + (u1 bytes[5] * (256 : Int) + u1 bytes[6])))) := by
  rw [init_five bytes (by omega)]
  have hk : (bytes[4] = 0 ∧ 7 < (bytes.length : Int)) := by omega
  have hc : ¬ ((bytes.length : Int) = 5 ∨ (bytes[4] = 0 ∧ (bytes.length : Int) = 7)) := by omega
  have hb : ¬ (bytes.length : Int) = bytes[4] + 5 := by omega
  have hd : decide ((bytes.length : Int) = u1 bytes[5] * (256 : Int) + u1 bytes[6] + 5) = false := by simpa using hn
  simp only
  rw [if_neg hc, if_neg hb, if_pos hk]
  simp only [getIn_ext bytes (by omega) h0, hd, getOut_ext bytes bytes.length rfl (by omega) h0]
  generalize le2 (bytes[bytes.length - 2]'(by omega)) (bytes[bytes.length - 1]'(by omega)) = l
  obtain ⟨l1, l2⟩ := l
  simp only
  have : ∀ x y z : Int, (4 + 3 + z + x = y) ↔ (y = 7 + z + x) := by intros; omega
  simp only [ne_eq, this]
  rfl

end APDU
end Verif.Model
