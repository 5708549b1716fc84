import Verif.Lemmas.BigNum
import Verif.Lemmas.Signed
import Verif.Lemmas.Bits
import Verif.Model.Key
/-! Lemmas about the conversions of key.py. -/
namespace Verif.Model
open Verif.Py Verif.Spec

theorem arrayToLong_nil : arrayToLong [] = 0 := rfl

theorem arrayToLong_cons (x : Int) (xs : List Int) : arrayToLong (x :: xs) = x + 256 * arrayToLong xs := by
  unfold arrayToLong
  rw [List.reverse_cons, List.foldl_append]
  simp only [List.foldl_cons, List.foldl_nil, shl]
  omega

theorem arrayToLong_append (xs ys : List Int) : arrayToLong (xs ++ ys) = arrayToLong xs + 256 ^ xs.length * arrayToLong ys := by
  induction xs with
  | nil => simp [arrayToLong_nil]
  | cons x xs ih =>
    rw [List.cons_append, arrayToLong_cons, arrayToLong_cons, ih, List.length_cons, Int.pow_succ, Int.mul_add, Int.add_assoc]
    congr 2
    rw [← Int.mul_assoc, Int.mul_comm 256]

theorem positional_append (b : Nat) (ds : List Nat) (d : Nat) : positional b (ds ++ [d]) = positional b ds * b + d := by
  unfold positional
  rw [List.foldl_append]
  rfl

theorem positional_reverse_cons (b d : Nat) (ds : List Nat) : positional b (d :: ds).reverse = d + b * positional b ds.reverse := by
  rw [List.reverse_cons, positional_append, Nat.mul_comm, Nat.add_comm]

theorem arrayToLong_nats (ds : List Nat) : arrayToLong (ds.map fun d : Nat => (d : Int)) = ((positional 256 ds.reverse : Nat) : Int) := by
  induction ds with
  | nil => rfl
  | cons d ds ih => rw [List.map_cons, arrayToLong_cons, ih, positional_reverse_cons]; omega

/-! ### Hexadecimal digits -/

theorem hexDigitsF_stable (f g n : Nat) (hf : n < f) (hg : n < g) : hexDigitsF f n = hexDigitsF g n := by
  induction f generalizing g n with
  | zero => omega
  | succ f ih =>
    cases g with
    | zero => omega
    | succ g =>
      unfold hexDigitsF
      by_cases h : n < 16
      · rw [if_pos h, if_pos h]
      · rw [if_neg h, if_neg h]
        congr 1
        exact ih g (n / 16) (by omega) (by omega)

theorem hexDigits_small (n : Nat) (h : n < 16) : hexDigits n = [n] := by
  unfold hexDigits hexDigitsF; rw [if_pos h]

theorem hexDigits_big (n : Nat) (h : 16 ≤ n) : hexDigits n = n % 16 :: hexDigits (n / 16) := by
  have e : hexDigits n = n % 16 :: hexDigitsF n (n / 16) := by
    unfold hexDigits
    rw [hexDigitsF.eq_2, if_neg (by omega)]
  rw [e]
  congr 1
  exact hexDigitsF_stable _ _ _ (by omega) (by omega)

theorem hexDigits_spec (n : Nat) :
    positional 16 (hexDigits n).reverse = n ∧ (∀ d ∈ hexDigits n, d < 16) ∧ (0 < n → (hexDigits n).getLast? ≠ some 0) ∧ hexDigits n ≠ [] := by
  induction n using Nat.strongRecOn with
  | ind n ih =>
    by_cases h : n < 16
    · rw [hexDigits_small n h]
      refine ⟨by simp [positional], by simp [h], ?_, by simp⟩
      intro hn
      simp; omega
    · rw [hexDigits_big n (by omega)]
      obtain ⟨h1, h2, h3, h4⟩ := ih (n / 16) (by omega)
      refine ⟨?_, ?_, ?_, by simp⟩
      · rw [positional_reverse_cons, h1]; omega
      · intro d hd
        rcases List.mem_cons.1 hd with rfl | hd
        · omega
        · exact h2 d hd
      · intro _
        rw [List.getLast?_cons_of_ne_nil h4]
        exact h3 (by omega)

theorem hexPairs_value (ds : List Nat) : arrayToLong (hexPairs ds) = ((positional 16 ds.reverse : Nat) : Int) := by
  induction ds using hexPairs.induct with
  | case1 => rfl
  | case2 d => simp [hexPairs, arrayToLong_cons, arrayToLong_nil, positional]
  | case3 d e rest ih =>
    rw [hexPairs, arrayToLong_cons, ih, positional_reverse_cons, positional_reverse_cons]
    omega

theorem hexPairs_nat (ds : List Nat) (h : ∀ d ∈ ds, d < 16) : ∃ bs : List Nat, hexPairs ds = bs.map (fun b : Nat => (b : Int)) ∧ (∀ b ∈ bs, b < 256) ∧
    (ds ≠ [] → bs ≠ []) ∧ (ds.getLast? ≠ some 0 → bs.getLast? ≠ some 0) := by
  induction ds using hexPairs.induct with
  | case1 => exact ⟨[], rfl, by simp, by simp, by simp⟩
  | case2 d =>
    have := h d (by simp)
    exact ⟨[d], rfl, by simp; omega, by simp, by simp⟩
  | case3 d e rest ih =>
    obtain ⟨bs, h1, h2, h3, h4⟩ := ih (fun x hx => h x (by simp [hx]))
    have hd := h d (by simp)
    have he := h e (by simp)
    refine ⟨(e * 16 + d) :: bs, by rw [hexPairs, h1]; rfl, ?_, by simp, ?_⟩
    · intro b hb
      rcases List.mem_cons.1 hb with rfl | hb
      · omega
      · exact h2 b hb
    · intro hl
      cases rest with
      | nil =>
        have hb : bs = [] := by
          cases bs with
          | nil => rfl
          | cons b bs => simp [hexPairs] at h1
        subst hb
        simp at hl ⊢
        omega
      | cons r rest =>
        have hbne := h3 (by simp)
        rw [List.getLast?_cons_of_ne_nil hbne]
        apply h4
        simpa [List.getLast?_cons_cons] using hl

/-- Little-endian base-256 digits without a zero at the end are unique. -/
theorem le_unique (as bs : List Nat) (ha : ∀ d ∈ as, d < 256) (hb : ∀ d ∈ bs, d < 256) (la : as.getLast? ≠ some 0) (lb : bs.getLast? ≠ some 0)
    (h : positional 256 as.reverse = positional 256 bs.reverse) : as = bs := by
  have key : ∀ ds : List Nat, (∀ d ∈ ds, d < 256) → ds.getLast? ≠ some 0 → positional 256 ds.reverse = 0 → ds = [] := by
    intro ds
    induction ds with
    | nil => intros; rfl
    | cons d ds ih =>
      intro h1 h2 h3
      rw [positional_reverse_cons] at h3
      have hz : positional 256 ds.reverse = 0 := by omega
      have hd : d = 0 := by omega
      subst hd
      cases ds with
      | nil => simp at h2
      | cons e ds =>
        have := ih (fun x hx => h1 x (by simp [hx])) (by simpa [List.getLast?_cons_cons] using h2) hz
        cases this
  induction as generalizing bs with
  | nil =>
    exact (key bs hb lb (by rw [← h]; rfl)).symm
  | cons a as ih =>
    cases bs with
    | nil => exact key _ ha la (by rw [h]; rfl)
    | cons b bs =>
      rw [positional_reverse_cons, positional_reverse_cons] at h
      have h1 := ha a (by simp)
      have h2 := hb b (by simp)
      have hab : a = b := by omega
      subst hab
      congr 1
      apply ih bs (fun x hx => ha x (by simp [hx])) (fun x hx => hb x (by simp [hx]))
      · cases as with
        | nil => simp
        | cons x xs => simpa [List.getLast?_cons_cons] using la
      · cases bs with
        | nil => simp
        | cons x xs => simpa [List.getLast?_cons_cons] using lb
      · omega

/-- What `_longToArray` returns with a Python 2 long. -/
theorem longToArray_suffix (n : Nat) : ∃ bs : List Nat, longToArray true n = bs.map (fun b : Nat => (b : Int)) ∧ (∀ b ∈ bs, b < 256) ∧ bs ≠ [] ∧
    positional 256 bs.reverse = n ∧ (0 < n → bs.getLast? ≠ some 0) := by
  obtain ⟨h1, h2, h3, h4⟩ := hexDigits_spec n
  obtain ⟨bs, g1, g2, g3, g4⟩ := hexPairs_nat (hexDigits n) h2
  refine ⟨bs, by simp [longToArray, g1], g2, g3 h4, ?_, fun hn => g4 (h3 hn)⟩
  have := hexPairs_value (hexDigits n)
  rw [g1, arrayToLong_nats, h1] at this
  omega

/-- ... and with a Python 3 int. -/
theorem longToArray_no_suffix (n : Nat) : longToArray false n = if n < 16 then [] else longToArray true (n / 16) := by
  unfold longToArray
  simp only [Bool.false_eq_true, if_false, if_true]
  by_cases h : n < 16
  · rw [if_pos h, hexDigits_small n h]; rfl
  · rw [if_neg h, hexDigits_big n (by omega)]; rfl

theorem longToArray_of_le (ds : List Nat) (hd : ∀ d ∈ ds, d < 256) (h : ds ≠ []) (hl : ds.getLast? ≠ some 0) :
    longToArray true (positional 256 ds.reverse) = ds.map (fun d : Nat => (d : Int)) := by
  obtain ⟨bs, h1, h2, h3, h4, h5⟩ := longToArray_suffix (positional 256 ds.reverse)
  rw [h1]
  have : 0 < positional 256 ds.reverse := by
    rcases Nat.eq_zero_or_pos (positional 256 ds.reverse) with hz | hz
    · exact absurd (le_unique ds [] hd (by simp) hl (by simp) hz) h
    · exact hz
  rw [le_unique bs ds h2 hd (h5 this) hl h4]

end Verif.Model
