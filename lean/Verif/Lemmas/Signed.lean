import Verif.Model.Utils
import Verif.Lemmas.Bits
/-! Arithmetic form of the sign conversions. -/
namespace Verif.Model
open Verif.Py

theorem signed_eq (v : Int) (d : Nat) :
    signed v d = if v ≥ 2 ^ (d * 8 - 1) then -((-v) % 2 ^ (d * 8)) else v := by
  simp only [signed, shl, inot, Int.one_mul, iand_mask]
  have h : (-(v - 1) - 1) = -v := by omega
  rw [h]
  split <;> split <;> first | rfl | omega

theorem s1_eq (v : Int) : s1 v = if v ≥ 128 then -((-v) % 256) else v := signed_eq v 1
theorem s2_eq (v : Int) : s2 v = if v ≥ 32768 then -((-v) % 65536) else v := signed_eq v 2
theorem s4_eq (v : Int) : s4 v = if v ≥ 2147483648 then -((-v) % 4294967296) else v := signed_eq v 4
@[simp] theorem u1_eq (v : Int) : u1 v = v % 256 := by simp [u1]

theorem s1_byte (v : Int) (h : v < 128) : s1 v = v := by rw [s1_eq]; split <;> omega
theorem s1_high (v : Int) (h : 128 ≤ v) (h2 : v < 256) : s1 v = v - 256 := by rw [s1_eq]; split <;> omega

theorem s1_isByte (v : Int) (h : 0 ≤ v) (h2 : v < 256) : -128 ≤ s1 v ∧ s1 v ≤ 127 := by
  rw [s1_eq]; split <;> omega

theorem s1_mod (v : Int) : s1 v % 256 = v % 256 := by rw [s1_eq]; split <;> omega
theorem s2_mod (v : Int) : s2 v % 65536 = v % 65536 := by rw [s2_eq]; split <;> omega
theorem s4_mod (v : Int) : s4 v % 4294967296 = v % 4294967296 := by rw [s4_eq]; split <;> omega

theorem makeShort_aux (a b : Int) :
    ior (iand (shl a 8) 0xFF00) (iand b 0xFF) = (a % 256) * 256 + b % 256 := by
  simp only [iand_ff00, iand_ff, shl]
  have e : a * 2 ^ 8 / 256 % 256 = a % 256 := by
    rw [show (2 : Int) ^ 8 = 256 by decide]
    rw [Int.mul_ediv_cancel a (by decide)]
  rw [e]
  have := ior_high_low (a % 256) (b % 256) (by omega) (by omega) 8 (by
    rw [show (2 : Int) ^ 8 = 256 by decide]; omega)
  rw [show (2 : Int) ^ 8 = 256 by decide] at this
  exact this

end Verif.Model
