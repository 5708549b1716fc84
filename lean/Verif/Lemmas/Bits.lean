import Verif.Py.Core
/-! Arithmetic characterisation of the Python bit operations. -/
namespace Verif.Py

theorem mask_xor_and (k m : Nat) :
    (2 ^ k - 1) ^^^ ((2 ^ k - 1) &&& m) = 2 ^ k - (m % 2 ^ k + 1) := by
  apply Nat.eq_of_testBit_eq
  intro i
  have hlt : m % 2 ^ k < 2 ^ k := Nat.mod_lt _ (Nat.two_pow_pos k)
  rw [Nat.testBit_two_pow_sub_succ hlt]
  simp only [Nat.testBit_xor, Nat.testBit_and, Nat.testBit_two_pow_sub_one, Nat.testBit_mod_two_pow]
  by_cases h : i < k <;> simp [h]

/-- `x & (2^k - 1) = x mod 2^k` for every integer, negative ones included. -/
theorem iand_mask (x : Int) (k : Nat) : iand x (2 ^ k - 1) = x % 2 ^ k := by
  have hp : (2 : Int) ^ k - 1 = Int.ofNat (2 ^ k - 1) := by
    have h1 := Nat.two_pow_pos k
    have h2 : ((2 ^ k : Nat) : Int) = 2 ^ k := by push_cast; rfl
    simp only [Int.ofNat_eq_natCast]
    omega
  have hpos : 0 < 2 ^ k := Nat.two_pow_pos k
  rw [hp]
  cases x with
  | ofNat m =>
    simp only [iand, Nat.and_two_pow_sub_one_eq_mod]
    simp
  | negSucc m =>
    simp only [iand, mask_xor_and]
    have hlt : m % 2 ^ k < 2 ^ k := Nat.mod_lt _ hpos
    have : ((2 : Int) ^ k) = ((2 ^ k : Nat) : Int) := by push_cast; rfl
    rw [this, Int.emod_def] 
    rw [Int.negSucc_ediv _ (by exact_mod_cast hpos)]
    have h2 := Nat.div_add_mod m (2 ^ k)
    have hd : Int.ediv (m : Int) ((2 ^ k : Nat) : Int) = ((m / 2 ^ k : Nat) : Int) := rfl
    rw [hd]
    rw [Int.negSucc_eq]
    simp only [Int.ofNat_eq_natCast]
    have e1 : ((2 ^ k - (m % 2 ^ k + 1) : Nat) : Int) = (2 ^ k : Nat) - ((m % 2 ^ k : Nat) + 1) := by
      omega
    rw [e1]
    have h3 : ((2 ^ k : Nat) : Int) * ((m / 2 ^ k : Nat) : Int) + ((m % 2 ^ k : Nat) : Int) = (m : Int) := by
      exact_mod_cast h2
    rw [Int.mul_neg, Int.mul_add]
    omega

theorem negSucc_div_two_pow (m b : Nat) : Int.negSucc m / 2 ^ b = Int.negSucc (m / 2 ^ b) := by
  have : ((2 : Int) ^ b) = ((2 ^ b : Nat) : Int) := by push_cast; rfl
  rw [this, Int.negSucc_ediv _ (by exact_mod_cast Nat.two_pow_pos b)]
  rw [Int.negSucc_eq]
  rfl

/-- `x & (m << b) = ((x >> b) & m) << b`. -/
theorem iand_shl (x : Int) (m b : Nat) : iand x ((m * 2 ^ b : Nat) : Int) = iand (x / 2 ^ b) m * 2 ^ b := by
  cases x with
  | ofNat n =>
    have h : (Int.ofNat n) / 2 ^ b = Int.ofNat (n / 2 ^ b) := by
      simp
    rw [h]
    show Int.ofNat _ = Int.ofNat _ * _
    have : n &&& m * 2 ^ b = (n / 2 ^ b &&& m) * 2 ^ b := by
      apply Nat.eq_of_testBit_eq
      intro i
      simp only [Nat.testBit_and, Nat.testBit_mul_two_pow, Nat.testBit_div_two_pow]
      by_cases hi : b ≤ i
      · simp [hi]
      · simp [hi]
    rw [this]
    simp
  | negSucc n =>
    rw [negSucc_div_two_pow]
    show Int.ofNat _ = Int.ofNat _ * _
    have : m * 2 ^ b ^^^ (m * 2 ^ b &&& n) = (m ^^^ (m &&& n / 2 ^ b)) * 2 ^ b := by
      apply Nat.eq_of_testBit_eq
      intro i
      simp only [Nat.testBit_and, Nat.testBit_xor, Nat.testBit_mul_two_pow, Nat.testBit_div_two_pow]
      by_cases hi : b ≤ i
      · simp [hi]
      · simp [hi]
    rw [this]
    simp

/-- `x & 2^k`. -/
theorem iand_bit (x : Int) (k : Nat) : iand x ((2 ^ k : Nat) : Int) = (x / 2 ^ k % 2) * 2 ^ k := by
  have h := iand_shl x 1 k
  rw [Nat.one_mul] at h
  rw [h]
  have := iand_mask (x / 2 ^ k) 1
  simp only [Int.pow_succ, Int.pow_zero] at this
  have e : ((1 : Nat) : Int) = 1 * 2 - 1 := by decide
  rw [e, this]
  simp

@[simp] theorem iand_ff (x : Int) : iand x 0xff = x % 256 := iand_mask x 8
@[simp] theorem iand_ffff (x : Int) : iand x 0xffff = x % 65536 := iand_mask x 16
@[simp] theorem iand_ffffffff (x : Int) : iand x 0xffffffff = x % 4294967296 := iand_mask x 32
@[simp] theorem iand_7f (x : Int) : iand x 0x7f = x % 128 := iand_mask x 7
@[simp] theorem iand_1f (x : Int) : iand x 0x1f = x % 32 := iand_mask x 5
@[simp] theorem iand_0f (x : Int) : iand x 0x0f = x % 16 := iand_mask x 4
@[simp] theorem iand_03 (x : Int) : iand x 0x3 = x % 4 := iand_mask x 2
@[simp] theorem iand_01 (x : Int) : iand x 0x1 = x % 2 := iand_mask x 1
@[simp] theorem iand_80 (x : Int) : iand x 0x80 = (x / 128 % 2) * 128 := iand_bit x 7
@[simp] theorem iand_20 (x : Int) : iand x 0x20 = (x / 32 % 2) * 32 := iand_bit x 5
@[simp] theorem iand_10 (x : Int) : iand x 0x10 = (x / 16 % 2) * 16 := iand_bit x 4
@[simp] theorem iand_ff00 (x : Int) : iand x 0xff00 = (x / 256 % 256) * 256 := by
  have h := iand_shl x 255 8
  have h2 := iand_mask (x / 2 ^ 8) 8
  have e : ((255 : Nat) : Int) = 2 ^ 8 - 1 := by decide
  rw [e, h2] at h
  exact h

/-- `(a << 8) | b` for a low byte `b`. -/
theorem ior_high_low (a b : Int) (ha : 0 ≤ a) (hb : 0 ≤ b) (k : Nat) (hlt : b < 2 ^ k) :
    ior (a * 2 ^ k) b = a * 2 ^ k + b := by
  obtain ⟨n, rfl⟩ := Int.eq_ofNat_of_zero_le ha
  obtain ⟨m, rfl⟩ := Int.eq_ofNat_of_zero_le hb
  have hm : m < 2 ^ k := by exact_mod_cast hlt
  have e : (n : Int) * 2 ^ k = Int.ofNat (n * 2 ^ k) := by simp
  rw [e]
  show Int.ofNat _ = _
  have h := Nat.two_pow_add_eq_or_of_lt hm n
  rw [Nat.mul_comm n, ← h]
  simp

end Verif.Py
