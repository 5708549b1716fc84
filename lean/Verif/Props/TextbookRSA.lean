import Mathlib.FieldTheory.Finite.Basic
import Mathlib.NumberTheory.Bertrand
import Verif.Props.Applets
/-! C98: ciphering with genuine RSA keys. The RSA operations of the external library are instantiated with
modular exponentiation, and the round trips of C64 and C84 hold for every key made from two primes. -/
namespace Verif.Props
open Verif.Py Verif.Model Verif.Spec

/-- Specification: raising to a power modulo `n`, refused (`ValueError`) for numbers that are negative or not below `n`. -/
def powMod (n k : Nat) (v : Int) : Except Err Nat :=
  if 0 ≤ v ∧ v < n then .ok (v.toNat ^ k % n) else .error .valueError

/-- Specification: RSA. Encrypting with a key raises to its public exponent, decrypting to its private one; a key built from
modulus and public exponent only has no private operation (`TypeError`). -/
def textbookRSA : RSAOps where
  enc h v := match h with
    | .given k => powMod k.n k.e v
    | .constructed n e => powMod n.toNat e.toNat v
  dec h v := match h with
    | .given k => powMod k.n k.d v
    | .constructed _ _ => .error .typeError

/-- Specification: an RSA key made from two different primes. -/
def IsRSAKey (k : TheKey) : Prop :=
  ∃ p q, p.Prime ∧ q.Prime ∧ p ≠ q ∧ k.n = p * q ∧ k.e * k.d % (p - 1) = 1 % (p - 1) ∧ k.e * k.d % (q - 1) = 1 % (q - 1)

/-- Fermat: exponents that are 1 modulo `p - 1` change nothing modulo the prime `p`, whatever the base. -/
theorem pow_mod_prime {p : Nat} (hp : p.Prime) (x m : Nat) (hm : m % (p - 1) = 1 % (p - 1)) (h0 : 0 < m) : x ^ m % p = x % p := by
  have : Fact p.Prime := ⟨hp⟩
  have key : (x : ZMod p) ^ m = (x : ZMod p) := by
    by_cases hx : (x : ZMod p) = 0
    · rw [hx, zero_pow (by omega)]
    · have hf := ZMod.pow_card_sub_one_eq_one hx
      have hm1 : (m - 1) % (p - 1) = 0 := by
        have : (1 + (m - 1)) % (p - 1) = 1 % (p - 1) := by rw [← hm]; congr 1; omega
        have h2 : (1 + (m - 1)) ≡ 1 + 0 [MOD (p - 1)] := by simpa [Nat.ModEq] using this
        have h3 := Nat.ModEq.add_left_cancel' 1 h2
        simpa [Nat.ModEq] using h3
      obtain ⟨t, ht⟩ := Nat.dvd_of_mod_eq_zero hm1
      have hm2 : m = (p - 1) * t + 1 := by omega
      rw [hm2, pow_succ, pow_mul, hf, one_pow, one_mul]
  have key2 : ((x ^ m : Nat) : ZMod p) = ((x : Nat) : ZMod p) := by push_cast; exact key
  exact (ZMod.natCast_eq_natCast_iff' _ _ _).1 key2

/-- C98: encrypting below the modulus gives a number below the modulus, and decrypting it gives the number back, for every RSA key;
the public operation may be that of a key object built from modulus and public exponent. -/
theorem C98_inverts (k : TheKey) (hk : IsRSAKey k) :
    Inverts textbookRSA k.n (.given k) (.given k) ∧ Inverts textbookRSA k.n (.constructed k.n k.e) (.given k) := by
  obtain ⟨p, q, hp, hq, hpq, hn, h1, h2⟩ := hk
  have hn0 : 0 < k.n := by rw [hn]; exact Nat.mul_pos hp.pos hq.pos
  have hpos : 0 < k.e * k.d := by
    rcases Nat.eq_zero_or_pos (k.e * k.d) with h | h
    · exfalso
      rw [h] at h1 h2
      have hp2 := hp.two_le
      have hq2 := hq.two_le
      -- 0 is 1 modulo p-1 and q-1 only when both are 1
      have e1 : p - 1 = 1 := by
        by_contra hne
        rw [Nat.zero_mod, Nat.mod_eq_of_lt (by omega : 1 < p - 1)] at h1
        omega
      have e2 : q - 1 = 1 := by
        by_contra hne
        rw [Nat.zero_mod, Nat.mod_eq_of_lt (by omega : 1 < q - 1)] at h2
        omega
      omega
    · exact h
  have back : ∀ x : Nat, x < k.n → (x ^ k.e % k.n) ^ k.d % k.n = x := by
    intro x hx
    rw [← Nat.pow_mod, ← pow_mul]
    have c1 := pow_mod_prime hp x _ h1 hpos
    have c2 := pow_mod_prime hq x _ h2 hpos
    have hco : Nat.Coprime p q := (Nat.coprime_primes hp hq).2 hpq
    have := (Nat.modEq_and_modEq_iff_modEq_mul hco).1 ⟨c1, c2⟩
    rw [← hn] at this
    have h3 : x ^ (k.e * k.d) % k.n = x % k.n := this
    rw [h3, Nat.mod_eq_of_lt hx]
  have dec : ∀ y : Nat, y < k.n → textbookRSA.dec (.given k) y = .ok (y ^ k.d % k.n) := by
    intro y hy
    show powMod k.n k.d y = _
    unfold powMod
    rw [if_pos (by omega)]
    rfl
  constructor
  · intro x hx
    refine ⟨x ^ k.e % k.n, Nat.mod_lt _ hn0, ?_, ?_⟩
    · show powMod k.n k.e x = _
      unfold powMod
      rw [if_pos (by omega)]
      rfl
    · rw [dec _ (Nat.mod_lt _ hn0), back x hx]
  · intro x hx
    refine ⟨x ^ k.e % k.n, Nat.mod_lt _ hn0, ?_, ?_⟩
    · show powMod ((k.n : Int)).toNat ((k.e : Int)).toNat x = _
      unfold powMod
      simp only [Int.toNat_natCast]
      rw [if_pos (by omega)]
    · rw [dec _ (Nat.mod_lt _ hn0), back x hx]

/-- The round trip for two library keys whose operations are mutually inverse below `N`. -/
theorem roundtrip_of_inverts (ops : RSAOps) (N : Nat) (hk hk' : KeyHandle) (hinv : Inverts ops N hk hk') (size : Nat) (hN : N ≤ 256 ^ (size / 8))
    (heap heap' : KeyHeap) (c c' : RSACipher) (pub : Bool)
    (he : RSAReady heap c 10 2 pub size hk) (hd : RSAReady heap' c' 10 1 false size hk')
    (rnd rnd' : List Nat) (hrnd : ∀ b ∈ rnd, b < 256) (M : List Int) (hM : M ≠ []) (hu : Unsigned M) (hlast : M.getLast hM ≠ 0)
    (hlen : M.length + 11 ≤ size / 8) (htop : (M.getLast hM + 1) * 256 ^ (size / 8 - 1) ≤ (N : Int))
    (hcount : size / 8 ≤ M.length + 3 + rnd.countP (· ≠ 0)) :
    ∃ ct out, c.doFinal heap ops true rnd M 0 M.length (List.replicate (size / 8) 0) 0 = some (.ok (ct.length : Int), out) ∧
      ct.length ≤ size / 8 ∧ out = ct ++ List.replicate (size / 8 - ct.length) 0 ∧
      c'.doFinal heap' ops true rnd' out 0 (size / 8 : Nat) (List.replicate M.length 0) 0 = some (.ok (M.length : Int), M) := by
  have hsz : ((size : Int) / 8).toNat = size / 8 := by omega
  have hr0 : range M 0 M.length = M := by simp [range]
  obtain ⟨b1, _, b3⟩ := C63_block rnd hrnd (size : Int) (range M 0 M.length) (by rw [hr0]; omega)
  obtain ⟨B, hB⟩ := b3 (by rw [hr0]; omega)
  have hblk := b1 B hB
  rw [hr0] at hblk
  have hBN : arrayToLong B < N := by
    have := block_below _ M B hblk hM hu
    obtain ⟨_, _, _, _, hl⟩ := hblk
    have hl : (B.length : Int) = (size : Int) / 8 := hl
    rw [show B.length - 1 = size / 8 - 1 by omega] at this
    omega
  obtain ⟨ct, out, e1, hw, hcu, hcl, hdec⟩ := C64_pkcs1_roundtrip heap heap' c c' pub size hk hk' N he hd ops hinv
    (by rw [hsz]; exact hN) rnd rnd' hrnd M (List.replicate (size / 8) 0) 0 M.length 0 (by omega) (by rw [hr0]; exact hu) B hB hBN (by rw [hsz]; simp)
  have hout : out = ct ++ List.replicate (size / 8 - ct.length) 0 := by
    obtain ⟨w1, w2, w3, w4⟩ := hw
    simp only [List.length_replicate, Nat.zero_add] at w1 w2 w3 w4
    apply List.ext_getElem?
    intro i
    by_cases hi : i < ct.length
    · rw [w3 i hi, List.getElem?_append_left hi, List.getElem?_eq_getElem hi]
    · rw [w4 i (by omega), List.getElem?_append_right (by omega), List.getElem?_replicate, List.getElem?_replicate]
      by_cases h2 : i < size / 8
      · rw [if_pos h2, if_pos (by omega)]
      · rw [if_neg h2, if_neg (by omega)]
  have hcl' : ct.length ≤ size / 8 := by omega
  refine ⟨ct, out, e1, hcl', hout, ?_⟩
  have hlo : out.length = size / 8 := by rw [hout]; simp; omega
  have := hdec out (List.replicate M.length 0) 0 0 (by omega) (by
    rw [hsz, ← hout]; simp [range, List.take_of_length_le, hlo]) M 0 (by rw [hr0]; simp) (by rw [List.getLast?_eq_some_getLast hM]; simpa using hlast) (by simp)
  obtain ⟨out', e2, w1, w2, w3, w4⟩ := this.1 hM
  rw [hsz] at e2
  have hout' : out' = M := by
    apply List.ext_getElem?
    intro i
    simp only [List.length_replicate, Nat.zero_add] at w1 w2 w3 w4
    by_cases hi : i < M.length
    · rw [w3 i hi, List.getElem?_eq_getElem hi]
    · rw [List.getElem?_eq_none (by omega), List.getElem?_eq_none (by omega)]
  rw [hout'] at e2
  exact e2

/-- C98: a PKCS#1 cipher made with the public key and one made with the private key of a genuine RSA key (Python 2): decryption of the
ciphertext, completed to size/8 bytes with zeros, gives back every message that does not end in a zero byte. -/
theorem C98_cipher_roundtrip (k : TheKey) (hk : IsRSAKey k) (size : Nat) (hN : k.n ≤ 256 ^ (size / 8))
    (heap heap' : KeyHeap) (c c' : RSACipher) (pub : Bool)
    (he : RSAReady heap c 10 2 pub size (.given k)) (hd : RSAReady heap' c' 10 1 false size (.given k))
    (rnd rnd' : List Nat) (hrnd : ∀ b ∈ rnd, b < 256) (M : List Int) (hM : M ≠ []) (hu : Unsigned M) (hlast : M.getLast hM ≠ 0)
    (hlen : M.length + 11 ≤ size / 8) (htop : (M.getLast hM + 1) * 256 ^ (size / 8 - 1) ≤ (k.n : Int))
    (hcount : size / 8 ≤ M.length + 3 + rnd.countP (· ≠ 0)) :
    ∃ ct out, c.doFinal heap textbookRSA true rnd M 0 M.length (List.replicate (size / 8) 0) 0 = some (.ok (ct.length : Int), out) ∧
      ct.length ≤ size / 8 ∧ out = ct ++ List.replicate (size / 8 - ct.length) 0 ∧
      c'.doFinal heap' textbookRSA true rnd' out 0 (size / 8 : Nat) (List.replicate M.length 0) 0 = some (.ok (M.length : Int), M) :=
  roundtrip_of_inverts textbookRSA k.n _ _ (C98_inverts k hk).1 size hN heap heap' c c' pub he hd rnd rnd' hrnd M hM hu hlast hlen htop hcount

/-- C98: the repository's RSA applet with a genuine 1024-bit key, Python 2, in every session. -/
theorem C98_applet (k : TheKey) (hk : IsRSAKey k) (hN : k.n ≤ 256 ^ 128) (generate : Int → TheKey) (hg : generate 1024 = k)
    (bArray : List Int) (bOffset : Int) (app0 app : RSAApplet)
    (hinst : RSAApplet.install true true generate bArray bOffset = .ok app0)
    (cs : List (List Nat × Option Bool × List Int)) (hsess : app0.session textbookRSA true cs = some app)
    (M : List Int) (hM : M ≠ []) (h117 : M.length ≤ 117) (hu : Unsigned M) (hlast : M.getLast hM ≠ 0) (htop : (M.getLast hM + 1) * 256 ^ 127 ≤ (k.n : Int))
    (p2 : Int) (ne : Option Nat) (bytes : List Int) (h : ShortCmd [0, 0xAA, 1, p2] M ne bytes) (hne : ∀ n, ne = some n → 128 ≤ n)
    (rnd : List Nat) (hrnd : ∀ b ∈ rnd, b < 256) (hcount : 125 ≤ M.length + rnd.countP (· ≠ 0)) :
    ∃ ct app1, app.command textbookRSA true rnd (some false) bytes = some (.ok (ct ++ [0x90, 0x00]), app1) ∧ ct.length ≤ 128 ∧ Unsigned ct ∧
      ∀ cs' app2, app1.session textbookRSA true cs' = some app2 →
        ∀ p2' ne' bytes' rnd', ShortCmd [0, 0xAA, 2, p2'] (ct ++ List.replicate (128 - ct.length) 0) ne' bytes' → (∀ n, ne' = some n → M.length ≤ n) →
          ∃ app3, app2.command textbookRSA true rnd' (some false) bytes' = some (.ok (M ++ [0x90, 0x00]), app3) :=
  C84_roundtrip generate bArray bOffset app0 app textbookRSA hinst cs hsess k.n (by rw [hg]; exact (C98_inverts k hk).1) hN M hM h117 hu hlast htop p2 ne bytes h hne
    rnd hrnd hcount

/-! The hypotheses can be met: small keys, and 1024-bit keys with non-trivial exponents (by Bertrand's postulate). -/
example : IsRSAKey ⟨61 * 53, 17, 2753⟩ := ⟨61, 53, by norm_num, by norm_num, by decide, rfl, by decide, by decide⟩
example : textbookRSA.enc (.given ⟨3233, 17, 2753⟩) 65 = .ok 2790 ∧ textbookRSA.dec (.given ⟨3233, 17, 2753⟩) 2790 = .ok 65 := by
  constructor <;> decide +kernel

theorem exists_big_key : ∃ k : TheKey, IsRSAKey k ∧ k.n < 256 ^ 128 ∧ 128 * 256 ^ 127 ≤ 4 * k.n ∧ 1 < k.e ∧ 1 < k.d ∧ k.e < k.n := by
  obtain ⟨p, hp, p1, p2⟩ := Nat.exists_prime_lt_and_le_two_mul (2 ^ 511) (by positivity)
  obtain ⟨q, hq, q1, q2⟩ := Nat.exists_prime_lt_and_le_two_mul (2 ^ 510) (by positivity)
  have hpq : p ≠ q := by omega
  have hP : 2 ^ 1021 ≤ p * q := by
    calc 2 ^ 1021 = 2 ^ 511 * 2 ^ 510 := by rw [← pow_add]
    _ ≤ p * q := Nat.mul_le_mul (by omega) (by omega)
  have hQ : p * q ≤ 2 ^ 1023 := by
    calc p * q ≤ 2 ^ 512 * 2 ^ 511 := Nat.mul_le_mul (by omega) (by omega)
    _ = 2 ^ 1023 := by rw [← pow_add]
  have h2 : 2 ≤ (p - 1) * (q - 1) - 1 := by
    have : 3 ≤ p - 1 := by omega
    have h3 : 3 ≤ q - 1 := by omega
    have := Nat.mul_le_mul this h3
    omega
  have sq : ∀ a b : Nat, 1 < a * b → (a * b - 1) * (a * b - 1) % a = 1 % a := by
    intro a b hab
    have e : (a * b - 1) * (a * b - 1) = 1 + a * (b * (a * b - 2)) := by
      obtain ⟨m, hm⟩ : ∃ m, a * b = m + 2 := ⟨a * b - 2, by omega⟩
      rw [← Nat.mul_assoc, hm]
      simp only [Nat.add_sub_cancel]
      have : m + 2 - 1 = m + 1 := by omega
      rw [this]; ring
    rw [e, Nat.add_mul_mod_self_left]
  refine ⟨⟨p * q, (p - 1) * (q - 1) - 1, (p - 1) * (q - 1) - 1⟩, ⟨p, q, hp, hq, hpq, rfl, ?_, ?_⟩, ?_, ?_, by show 1 < (p - 1) * (q - 1) - 1; omega, by show 1 < (p - 1) * (q - 1) - 1; omega, ?_⟩
  · exact sq _ _ (by omega)
  · have := sq (q - 1) (p - 1) (by rw [Nat.mul_comm]; omega)
    rw [Nat.mul_comm (q - 1)] at this
    exact this
  · show p * q < _
    have h : 0 < 2 ^ 1023 := by positivity
    have : (256 : Nat) ^ 128 = 2 * 2 ^ 1023 := by decide +kernel
    omega
  · show _ ≤ 4 * (p * q)
    have : 128 * (256 : Nat) ^ 127 = 4 * 2 ^ 1021 := by decide +kernel
    omega
  · show (p - 1) * (q - 1) - 1 < p * q
    have : (p - 1) * (q - 1) ≤ p * q := Nat.mul_le_mul (by omega) (by omega)
    omega

example : ∃ k, IsRSAKey k ∧ k.n ≤ 256 ^ 128 ∧ ((0x1f : Int) + 1) * 256 ^ 127 ≤ k.n := by
  obtain ⟨k, h1, h2, h3, _⟩ := exists_big_key
  exact ⟨k, h1, h2.le, by push_cast; omega⟩

end Verif.Props
