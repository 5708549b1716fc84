import Mathlib.RingTheory.IntegralDomain
import Verif.Props.TextbookRSA
import Verif.Props.RSAAny
/-! C109: "signing" with a private key (MODE_ENCRYPT) and "verifying" with the public key (MODE_DECRYPT), as /repo/test/testCipher.py:52-71 does. -/
namespace Verif.Props
open Verif.Py Verif.Model Verif.Spec

/-- Specification: `pub` and `priv` are the two keys of a pair of `size` bits for which the library generated `k`. -/
def GeneratedPair (py2 : Bool) (size : Nat) (k : TheKey) (pub priv : RSAKey) : Prop :=
  ∃ alg p0 p generate, KeyPair.new alg size = .ok p0 ∧ p0.genKeyPair true py2 generate = (.ok (), p) ∧ generate (size : Int) = k ∧
    pub = p.publicKey ∧ priv = p.privateKey

/-- Specification: the result of a successful `init` of some RSA cipher of the algorithm, whatever had been done with it before, with key `r` and mode `m`. -/
def InitRSA (heap : KeyHeap) (alg : Int) (r : Nat) (m : Int) (s : RSACipher) : Prop :=
  ∃ c, c.base.algorithm = alg ∧ RSACipher.init heap c (.key r) m = (.ok (), s)

theorem generated_keys {py2 : Bool} {size : Nat} {k : TheKey} {pub priv : RSAKey} (h : GeneratedPair py2 size k pub priv) :
    pub.isPublic = true ∧ priv.isPublic = false ∧ pub.size = size ∧ priv.size = size ∧ pub.theKey = some (.given k) ∧ priv.theKey = some (.given k) := by
  obtain ⟨alg, p0, p, generate, hn, hg, hk, rfl, rfl⟩ := h
  have hp0 : p0 = ⟨some alg, some (size : Int), RSAKey.new true size, RSAKey.new false size⟩ ∧ (alg = 1 ∨ alg = 2) := by
    unfold KeyPair.new at hn
    split at hn
    · next h => injection hn with hn; exact ⟨hn.symm, .inl h⟩
    · split at hn
      · next h => injection hn with hn; exact ⟨hn.symm, .inr h⟩
      · cases hn
  obtain ⟨rfl, ha⟩ := hp0
  have : ¬ (alg ≠ 1 ∧ alg ≠ 2) := by omega
  simp [KeyPair.genKeyPair, RSAKey.new, this, RSAKey.setTheKey, RSAKey.afterSet, hk] at hg
  subst hg
  simp

theorem init_ready {heap : KeyHeap} {alg : Int} {r : Nat} {m : Int} {s : RSACipher} (h : InitRSA heap alg r m s) {k : RSAKey} (hk : heap r = .rsa k) {hd : KeyHandle}
    (ht : k.theKey = some hd) : RSAReady heap s alg m k.isPublic k.size hd := by
  obtain ⟨c, rfl, h⟩ := h
  unfold RSACipher.init CipherBase.init at h
  simp only at h
  rw [hk] at h
  by_cases hi : (KeyObj.rsa k).isInitialized = true
  · by_cases hm : m = MODE_ENCRYPT ∨ m = MODE_DECRYPT
    · simp [hi, hm, hk] at h
      subst h
      exact ⟨rfl, rfl, rfl, r, k, rfl, hk, rfl, rfl, ht⟩
    · simp [hi, hm] at h
  · simp [hi] at h

/-- Two ciphers that hold the same library key and size, and make the same use of it, compute the same. -/
theorem ready_doFinal_eq {heap : KeyHeap} {s s' : RSACipher} {alg m m' : Int} {pub pub' : Bool} {size : Int} {hd : KeyHandle} (h : RSAReady heap s alg m pub size hd)
    (h' : RSAReady heap s' alg m' pub' size hd) (ha : alg = 10 → m = m') (hop : (m = 2 ∨ pub = true) ↔ (m' = 2 ∨ pub' = true)) (ops : RSAOps) (ls : Bool)
    (rnd : List Nat) (inB : List Int) (io il : Int) (outB : List Int) (oo : Int) :
    s.doFinal heap ops ls rnd inB io il outB oo = s'.doFinal heap ops ls rnd inB io il outB oo := by
  obtain ⟨h1, h2, h3, r, k, h4, h5, h6, h7, h8⟩ := h
  obtain ⟨g1, g2, g3, r', k', g4, g5, g6, g7, g8⟩ := h'
  unfold RSACipher.doFinal
  rw [if_neg (by simp [h1]), if_neg (by simp [g1]), h4, g4, Option.map_some, Option.map_some, h5, g5]
  simp only [h2, h3, h6, h7, h8, g2, g3, g6, g7, g8]
  have e1 : (alg = 10 ∧ some m = some MODE_ENCRYPT) = (alg = 10 ∧ some m' = some MODE_ENCRYPT) := by
    apply propext; constructor <;> rintro ⟨a, b⟩ <;> [rw [ha a] at b; rw [← ha a] at b] <;> exact ⟨a, b⟩
  have e2 : (alg = 10 ∧ some m = some MODE_DECRYPT) = (alg = 10 ∧ some m' = some MODE_DECRYPT) := by
    apply propext; constructor <;> rintro ⟨a, b⟩ <;> [rw [ha a] at b; rw [← ha a] at b] <;> exact ⟨a, b⟩
  have e3 : ∀ x, (if some m = some MODE_ENCRYPT then ops.enc hd x else if pub = true then ops.enc hd x else ops.dec hd x) =
      (if some m' = some MODE_ENCRYPT then ops.enc hd x else if pub' = true then ops.enc hd x else ops.dec hd x) := by
    intro x
    unfold MODE_ENCRYPT
    simp only [Option.some.injEq]
    by_cases q : m = 2 ∨ pub = true
    · have q' := hop.1 q
      rcases q with q | q <;> rcases q' with q' | q' <;> simp [q, q']
    · have q' := fun h => q (hop.2 h)
      rw [if_neg (fun h => q (.inl h)), if_neg (fun h => q (.inr h)), if_neg (fun h => q' (.inl h)), if_neg (fun h => q' (.inr h))]
  simp only [e1, e2, e3]

/-- C109: whatever the library, the Python version, the history of the ciphers and the arguments, encrypting ("signing") with the private key of a generated pair
is encrypting with its public key. -/
theorem C109_same_signature (py2 : Bool) (size : Nat) (k : TheKey) (pub priv : RSAKey) (hp : GeneratedPair py2 size k pub priv) (heap : KeyHeap) (r r' : Nat)
    (h1 : heap r = .rsa pub) (h2 : heap r' = .rsa priv) (alg : Int) (s s' : RSACipher) (hs : InitRSA heap alg r' 2 s) (hs' : InitRSA heap alg r 2 s') :
    ∀ ops ls rnd inB io il outB oo, s.doFinal heap ops ls rnd inB io il outB oo = s'.doFinal heap ops ls rnd inB io il outB oo := by
  obtain ⟨g1, g2, g3, g4, g5, g6⟩ := generated_keys hp
  intro ops ls rnd inB io il outB oo
  have a := init_ready hs h2 g6
  have b := init_ready hs' h1 g5
  rw [g4] at a
  rw [g3] at b
  exact ready_doFinal_eq a b (fun _ => rfl) (by simp) ops ls rnd inB io il outB oo

/-- C109: without padding, decrypting ("verifying") with a public key is encrypting with it. -/
theorem C109_verify_is_encrypt (py2 : Bool) (size : Nat) (k : TheKey) (pub priv : RSAKey) (hp : GeneratedPair py2 size k pub priv) (heap : KeyHeap) (r : Nat)
    (h1 : heap r = .rsa pub) (s v : RSACipher) (hs : InitRSA heap 12 r 2 s) (hv : InitRSA heap 12 r 1 v) :
    ∀ ops ls rnd inB io il outB oo, v.doFinal heap ops ls rnd inB io il outB oo = s.doFinal heap ops ls rnd inB io il outB oo := by
  obtain ⟨g1, g2, g3, g4, g5, g6⟩ := generated_keys hp
  intro ops ls rnd inB io il outB oo
  exact ready_doFinal_eq (init_ready hv h1 g5) (init_ready hs h1 g5) (fun h => absurd h (by decide)) (by simp [g1]) ops ls rnd inB io il outB oo

/-- Specification: signing the array `M` into an array of zeros of the same length, then verifying that array, again into zeros, gives `back`. -/
def SignVerify (heap : KeyHeap) (s v : RSACipher) (M back : List Int) : Prop :=
  ∃ l sig l', s.doFinal heap textbookRSA true [] M 0 M.length (List.replicate M.length 0) 0 = some (.ok l, sig) ∧ sig.length = M.length ∧
    v.doFinal heap textbookRSA true [] sig 0 M.length (List.replicate M.length 0) 0 = some (.ok l', back)

theorem written_zeros {n : Nat} {out w : List Int} (h : Written (List.replicate n 0) out 0 w) : out = w ++ List.replicate (n - w.length) 0 := by
  obtain ⟨w1, w2, w3, w4⟩ := h
  simp only [List.length_replicate, Nat.zero_add] at w1 w2 w3 w4
  apply List.ext_getElem?
  intro i
  by_cases hi : i < w.length
  · rw [w3 i hi, List.getElem?_append_left hi, List.getElem?_eq_getElem hi]
  · rw [w4 i (by omega), List.getElem?_append_right (by omega), List.getElem?_replicate, List.getElem?_replicate]
    by_cases h2 : i < n
    · rw [if_pos h2, if_pos (by omega)]
    · rw [if_neg h2, if_neg (by omega)]

/-- One call without padding on a whole array, with a library that answers `y`. -/
theorem nopad_step {heap : KeyHeap} {c : RSACipher} {m : Int} {pub : Bool} {size : Nat} {hd : KeyHandle} (hr : RSAReady heap c 12 m pub size hd) (hop : m = 2 ∨ pub = true)
    (ops : RSAOps) (rnd : List Nat) (M : List Int) (hM : M.length = size / 8) (h0 : 0 < size / 8) (y : Nat) (he : ops.enc hd (leValue M) = .ok y) (hy : y < 256 ^ (size / 8)) :
    ∃ l out, c.doFinal heap ops true rnd M 0 M.length (List.replicate M.length 0) 0 = some (.ok l, out) ∧ out.length = M.length ∧ Unsigned out ∧ leValue out = y := by
  have hl := longToArray_length y _ h0 hy
  obtain ⟨o, ho1, ho2⟩ := rsaOutput_ok (longToArray true y) (List.replicate M.length 0) 0 (by simp; omega)
  refine ⟨((longToArray true y).length : Int), o, ?_, ?_, ?_, ?_⟩
  · have e := rsa_doFinal hr ops true rnd M (List.replicate M.length 0) 0 M.length 0 (by omega)
    have hrg : range M 0 M.length = M := by simp [range]
    rw [if_neg (fun h => absurd h.1 (by decide)), hrg] at e
    simp only at e
    rw [if_neg (by omega), if_pos hop, leValue_eq, he] at e
    simp only at e
    rw [if_neg (fun h => absurd h.1 (by decide))] at e
    exact e.trans ho1
  all_goals rw [written_zeros ho2]
  · simp; omega
  · intro x hx
    rcases List.mem_append.1 hx with h | h
    · exact (longToArray_props y).1 x h
    · rw [List.eq_of_mem_replicate h]; omega
  · rw [← leValue_eq, arrayToLong_append_zeros]; exact C50_py2 y

theorem leValue_nonneg {l : List Int} (h : Unsigned l) : 0 ≤ leValue l := by
  rw [← leValue_eq]; exact arrayToLong_ge l h

theorem leValue_inj : ∀ {a b : List Int}, Unsigned a → Unsigned b → a.length = b.length → leValue a = leValue b → a = b
  | [], [], _, _, _, _ => rfl
  | [], _ :: _, _, _, h, _ => by simp at h
  | _ :: _, [], _, _, h, _ => by simp at h
  | x :: xs, y :: ys, ha, hb, hl, hv => by
    have hx := ha x (by simp)
    have hy := hb y (by simp)
    simp only [leValue] at hv
    have e : x = y ∧ leValue xs = leValue ys := by constructor <;> omega
    rw [e.1, leValue_inj (fun z hz => ha z (by simp [hz])) (fun z hz => hb z (by simp [hz])) (by simpa using hl) e.2]

theorem exists_block (S x : Nat) (hS : 0 < S) (hx : x < 256 ^ S) : ∃ M, M.length = S ∧ Unsigned M ∧ leValue M = x := by
  have hl := longToArray_length x S hS hx
  refine ⟨longToArray true x ++ List.replicate (S - (longToArray true x).length) 0, by simp; omega, ?_, ?_⟩
  · intro z hz
    rcases List.mem_append.1 hz with h | h
    · exact (longToArray_props x).1 z h
    · rw [List.eq_of_mem_replicate h]; omega
  · rw [← leValue_eq, arrayToLong_append_zeros]; exact C50_py2 x

/-- C109: without padding, for every library key: a block whose number `x` is below the modulus comes back, signed with the private key and verified with the
public one, as the block of `x ^ (e * e) mod n`; so it is restored exactly when that number is `x`. -/
theorem C109_verify_value (size : Nat) (k : TheKey) (pub priv : RSAKey) (hp : GeneratedPair true size k pub priv) (hN : k.n ≤ 256 ^ (size / 8)) (h0 : 0 < size / 8)
    (heap : KeyHeap) (r r' : Nat) (h1 : heap r = .rsa pub) (h2 : heap r' = .rsa priv) (s v : RSACipher) (hs : InitRSA heap 12 r' 2 s) (hv : InitRSA heap 12 r 1 v)
    (M : List Int) (hM : M.length = size / 8) (x : Nat) (hx : leValue M = x) (hxn : x < k.n) :
    ∃ back, (∀ b, SignVerify heap s v M b ↔ b = back) ∧ back.length = M.length ∧ Unsigned back ∧ leValue back = (x ^ (k.e * k.e) % k.n : Nat) := by
  obtain ⟨g1, g2, g3, g4, g5, g6⟩ := generated_keys hp
  have rs := init_ready hs h2 g6
  have rv := init_ready hv h1 g5
  rw [g4] at rs
  rw [g1, g3] at rv
  have hn0 : 0 < k.n := by omega
  have hpm : ∀ z : Nat, z < k.n → textbookRSA.enc (.given k) (z : Int) = .ok (z ^ k.e % k.n) := by
    intro z hz
    show powMod k.n k.e z = _
    unfold powMod
    rw [if_pos (by omega), Int.toNat_natCast]
  obtain ⟨l, sig, e1, s1, s2, s3⟩ := nopad_step rs (.inl rfl) textbookRSA [] M hM h0 _ (by rw [hx]; exact hpm x hxn) (by have := Nat.mod_lt (x ^ k.e) hn0; omega)
  obtain ⟨l', back, e2, b1, b2, b3⟩ := nopad_step rv (.inr rfl) textbookRSA [] sig (by omega) h0 _ (by rw [s3]; exact hpm _ (Nat.mod_lt _ hn0))
    (by have := Nat.mod_lt ((x ^ k.e % k.n) ^ k.e) hn0; omega)
  rw [s1] at e2
  refine ⟨back, fun b => ⟨?_, ?_⟩, by omega, b2, by rw [b3, ← Nat.pow_mod, ← Nat.pow_mul]⟩
  · rintro ⟨a1, a2, a3, q1, q2, q3⟩
    rw [e1] at q1
    injection q1 with q1
    injection q1 with _ q1
    subst q1
    rw [e2] at q3
    injection q3 with q3
    injection q3 with _ q3
    exact q3.symm
  · rintro rfl
    exact ⟨l, sig, l', e1, s1, e2⟩

/-- If raising to `m` changes no number below `n`, and `p` divides `n`, then `m` is 1 modulo `p - 1` (there is a primitive root). -/
theorem exponent_of_fixes {p n m : Nat} (hp : p.Prime) (hpn : p ∣ n) (hn : 0 < n) (hm : 0 < m) (h : ∀ x, x < n → x ^ m % n = x) : m % (p - 1) = 1 % (p - 1) := by
  have : Fact p.Prime := ⟨hp⟩
  obtain ⟨g, hg⟩ := IsCyclic.exists_generator (α := (ZMod p)ˣ)
  have ho : orderOf g = p - 1 := by rw [orderOf_eq_card_of_forall_mem_zpowers hg, Nat.card_eq_fintype_card, ZMod.card_units]
  have hx : (g : ZMod p).val < n := lt_of_lt_of_le (ZMod.val_lt _) (Nat.le_of_dvd hn hpn)
  have hh := h _ hx
  have hz : (g : ZMod p) ^ m = (g : ZMod p) := by
    have e1 : (((g : ZMod p).val ^ m : Nat) : ZMod p) = (((g : ZMod p).val : Nat) : ZMod p) := by
      rw [ZMod.natCast_eq_natCast_iff']
      conv_rhs => rw [← hh]
      exact (Nat.mod_mod_of_dvd _ hpn).symm
    simpa using e1
  have hu : g ^ m = g := by ext; simpa using hz
  have hd : g ^ (m - 1) = 1 := by
    have : g ^ (m - 1) * g = 1 * g := by rw [← pow_succ, one_mul, show m - 1 + 1 = m by omega, hu]
    exact mul_right_cancel this
  have hdv := orderOf_dvd_of_pow_eq_one hd
  rw [ho] at hdv
  obtain ⟨t, ht⟩ := hdv
  rw [show m = (p - 1) * t + 1 by omega, Nat.mul_add_mod]

theorem fixes_of_exponent {p q n m : Nat} (hp : p.Prime) (hq : q.Prime) (hpq : p ≠ q) (hn : n = p * q) (hm : 0 < m) (h1 : m % (p - 1) = 1 % (p - 1))
    (h2 : m % (q - 1) = 1 % (q - 1)) (x : Nat) (hx : x < n) : x ^ m % n = x := by
  have e1 : x ^ m ≡ x [MOD p] := pow_mod_prime hp x m h1 hm
  have e2 : x ^ m ≡ x [MOD q] := pow_mod_prime hq x m h2 hm
  have : x ^ m ≡ x [MOD p * q] := (Nat.modEq_and_modEq_iff_modEq_mul ((Nat.coprime_primes hp hq).2 hpq)).1 ⟨e1, e2⟩
  rw [← hn] at this
  have e3 : x ^ m % n = x % n := this
  rw [e3, Nat.mod_eq_of_lt hx]

/-- C109: for a key of two primes, verifying restores every signed block below the modulus exactly when squaring the public exponent gives 1 modulo `p - 1` and
`q - 1`, that is when the public operation is its own inverse. -/
theorem C109_restores_iff (size : Nat) (k : TheKey) (p q : Nat) (hpp : p.Prime) (hqp : q.Prime) (hpq : p ≠ q) (hn : k.n = p * q) (he : 0 < k.e)
    (pub priv : RSAKey) (hp : GeneratedPair true size k pub priv) (hN : k.n ≤ 256 ^ (size / 8))
    (heap : KeyHeap) (r r' : Nat) (h1 : heap r = .rsa pub) (h2 : heap r' = .rsa priv) (s v : RSACipher) (hs : InitRSA heap 12 r' 2 s) (hv : InitRSA heap 12 r 1 v) :
    (∀ M, M.length = size / 8 → Unsigned M → leValue M < k.n → SignVerify heap s v M M) ↔
      k.e * k.e % (p - 1) = 1 % (p - 1) ∧ k.e * k.e % (q - 1) = 1 % (q - 1) := by
  have hn0 : 1 < k.n := by rw [hn]; have := hpp.two_le; have := hqp.two_le; nlinarith
  have h0 : 0 < size / 8 := by
    rcases Nat.eq_zero_or_pos (size / 8) with h | h
    · rw [h] at hN; simp at hN; omega
    · exact h
  have hm : 0 < k.e * k.e := Nat.mul_pos he he
  constructor
  · intro h
    have hf : ∀ x, x < k.n → x ^ (k.e * k.e) % k.n = x := by
      intro x hx
      obtain ⟨M, m1, m2, m3⟩ := exists_block (size / 8) x h0 (by omega)
      obtain ⟨back, b1, b2, b3, b4⟩ := C109_verify_value size k pub priv hp hN h0 heap r r' h1 h2 s v hs hv M m1 x m3 hx
      have := (b1 M).1 (h M m1 m2 (by omega))
      rw [← this, m3] at b4
      exact_mod_cast b4.symm
    exact ⟨exponent_of_fixes hpp ⟨q, hn⟩ (by omega) hm hf, exponent_of_fixes hqp ⟨p, by rw [hn, Nat.mul_comm]⟩ (by omega) hm hf⟩
  · rintro ⟨a, b⟩ M m1 m2 m3
    obtain ⟨x, hx⟩ : ∃ x : Nat, leValue M = x := ⟨(leValue M).toNat, by have := leValue_nonneg m2; omega⟩
    obtain ⟨back, b1, b2, b3, b4⟩ := C109_verify_value size k pub priv hp hN h0 heap r r' h1 h2 s v hs hv M m1 x hx (by omega)
    rw [fixes_of_exponent hpp hqp hpq hn hm a b x (by omega), ← hx] at b4
    exact (b1 M).2 (leValue_inj m2 b3 (by omega) b4.symm)

/-- C109: so with any usual key (public exponent at least 2 and its square below one of the primes less one) some block is not restored. -/
theorem C109_not_restored (size : Nat) (k : TheKey) (p q : Nat) (hpp : p.Prime) (hqp : q.Prime) (hpq : p ≠ q) (hn : k.n = p * q) (he : 1 < k.e) (hep : k.e * k.e < p - 1)
    (pub priv : RSAKey) (hp : GeneratedPair true size k pub priv) (hN : k.n ≤ 256 ^ (size / 8))
    (heap : KeyHeap) (r r' : Nat) (h1 : heap r = .rsa pub) (h2 : heap r' = .rsa priv) (s v : RSACipher) (hs : InitRSA heap 12 r' 2 s) (hv : InitRSA heap 12 r 1 v) :
    ∃ M, M.length = size / 8 ∧ Unsigned M ∧ leValue M < k.n ∧ ¬ SignVerify heap s v M M := by
  by_contra hc
  push Not at hc
  have := ((C109_restores_iff size k p q hpp hqp hpq hn (by omega) pub priv hp hN heap r r' h1 h2 s v hs hv).1 hc).1
  have h2 : 1 < k.e * k.e := by nlinarith
  rw [Nat.mod_eq_of_lt hep, Nat.mod_eq_of_lt (by omega)] at this
  omega

theorem pkcs1Text_length {R T : List Int} (h : pkcs1Text R = .ok T) : T.length ≤ R.length := by
  unfold pkcs1Text at h
  split at h
  · cases h
  · split at h
    · cases h
    · next x hx =>
      injection h with h
      subst h
      have h1 := (List.dropWhile_sublist (fun x : Int => decide (x ≠ 0)) (l := R.drop 3)).length_le
      rw [hx] at h1
      simp at h1
      omega

/-- C109: with PKCS#1 padding (Python 2): the padded message is refused by the library when it is not below the modulus; otherwise what is verified is not the padded
message but its number raised to the square of the public exponent: the answer is the text in that block, or ILLEGAL_VALUE (ValueError) when it is not a padded block. -/
theorem C109_pkcs1_verify (size : Nat) (k : TheKey) (pub priv : RSAKey) (hp : GeneratedPair true size k pub priv) (hN : k.n ≤ 256 ^ (size / 8))
    (heap : KeyHeap) (r r' : Nat) (h1 : heap r = .rsa pub) (h2 : heap r' = .rsa priv) (s v : RSACipher) (hs : InitRSA heap 10 r' 2 s) (hv : InitRSA heap 10 r 1 v)
    (rnd rnd' : List Nat) (hrnd : ∀ b ∈ rnd, b < 256) (M : List Int) (hu : Unsigned M) (hM : M.length + 11 ≤ size / 8) (hcount : size / 8 ≤ M.length + 3 + rnd.countP (· ≠ 0)) :
    ∃ B x, IsPKCS1Block ((size : Int) / 8) M B ∧ leValue B = (x : Nat) ∧
      let zeros := List.replicate (size / 8) 0
      (k.n ≤ x → s.doFinal heap textbookRSA true rnd M 0 M.length zeros 0 = some (.error .valueError, zeros)) ∧
      (x < k.n → ∃ l sig R, s.doFinal heap textbookRSA true rnd M 0 M.length zeros 0 = some (.ok l, sig) ∧ LECells R (x ^ (k.e * k.e) % k.n) ∧
        v.doFinal heap textbookRSA true rnd' sig 0 (size / 8 : Nat) zeros 0 =
          match pkcs1Text R with
          | .error e => some (.error e, zeros)
          | .ok T => some (.ok (T.length : Int), T ++ List.replicate (size / 8 - T.length) 0)) := by
  obtain ⟨g1, g2, g3, g4, g5, g6⟩ := generated_keys hp
  have rs := init_ready hs h2 g6
  have rv := init_ready hv h1 g5
  rw [g4] at rs
  rw [g1, g3] at rv
  have hrg : range M 0 M.length = M := by simp [range]
  obtain ⟨b1, _, b3⟩ := C63_block rnd hrnd (size : Int) M (by omega)
  obtain ⟨B, hB⟩ := b3 (by omega)
  have hblk := b1 B hB
  have hBl : (B.length : Int) = (size : Int) / 8 := hblk.choose_spec.2.2.2
  have hBu : Unsigned B := by
    obtain ⟨PS, rfl, _, hPS, _⟩ := hblk
    intro z hz
    simp only [List.mem_cons, List.mem_append] at hz
    rcases hz with rfl | rfl | hz | rfl | hz
    · decide
    · decide
    · have := hPS z hz; omega
    · decide
    · exact hu z hz
  obtain ⟨x, hx⟩ : ∃ x : Nat, leValue B = x := ⟨(leValue B).toNat, by have := leValue_nonneg hBu; omega⟩
  have sign := rsa_doFinal rs textbookRSA true rnd M (List.replicate (size / 8) 0) 0 M.length 0 (by omega)
  rw [if_pos ⟨rfl, rfl⟩, hrg, hB] at sign
  simp only at sign
  rw [if_neg (by omega), if_pos (by simp), leValue_eq, hx] at sign
  refine ⟨B, x, hblk, hx, ?_, ?_⟩
  · intro hge
    have : textbookRSA.enc (.given k) (x : Int) = .error .valueError := by
      show powMod k.n k.e x = _
      unfold powMod
      rw [if_neg (by omega)]
    rw [this] at sign
    exact sign
  · intro hlt
    have hn0 : 0 < k.n := by omega
    have hpm : ∀ z : Nat, z < k.n → textbookRSA.enc (.given k) (z : Int) = .ok (z ^ k.e % k.n) := by
      intro z hz
      show powMod k.n k.e z = _
      unfold powMod
      rw [if_pos (by omega), Int.toNat_natCast]
    have h0 : 0 < size / 8 := by omega
    have hy1 := Nat.mod_lt (x ^ k.e) hn0
    rw [hpm x hlt] at sign
    simp only at sign
    rw [if_neg (fun h => absurd h.2 (by decide))] at sign
    have hl := longToArray_length (x ^ k.e % k.n) _ h0 (by omega)
    obtain ⟨sig, ho1, ho2⟩ := rsaOutput_ok (longToArray true (x ^ k.e % k.n)) (List.replicate (size / 8) 0) 0 (by simp; omega)
    have hsig := written_zeros ho2
    have hsl : sig.length = size / 8 := by rw [hsig]; simp; omega
    have hsv : arrayToLong sig = (x ^ k.e % k.n : Nat) := by rw [hsig, arrayToLong_append_zeros]; exact C50_py2 _
    have hy2 := Nat.mod_lt ((x ^ k.e % k.n) ^ k.e) hn0
    have hR := leCells_long ((x ^ k.e % k.n) ^ k.e % k.n)
    have hRl := longToArray_length ((x ^ k.e % k.n) ^ k.e % k.n) _ h0 (by omega)
    rw [← Nat.pow_mod, ← Nat.pow_mul] at hR hRl
    refine ⟨_, sig, longToArray true (x ^ (k.e * k.e) % k.n), sign.trans ho1, hR, ?_⟩
    have ver := rsa_doFinal rv textbookRSA true rnd' sig (List.replicate (size / 8) 0) 0 (size / 8) 0 (by omega)
    rw [if_neg (fun h => absurd h.2 (by decide)), show range sig 0 (size / 8) = sig by simp [range, ← hsl]] at ver
    simp only at ver
    rw [if_neg (by omega), if_pos (by simp), hsv, hpm _ hy1] at ver
    simp only at ver
    rw [if_pos (by simp), ← Nat.pow_mod, ← Nat.pow_mul, pkcs1Text_eq] at ver
    rw [show ((0 : Nat) : Int) = 0 from rfl] at ver
    rw [ver]
    cases hT : pkcs1Text (longToArray true (x ^ (k.e * k.e) % k.n)) with
    | error e => rfl
    | ok T =>
      have hTl := pkcs1Text_length hT
      obtain ⟨o, q1, q2⟩ := rsaOutput_ok T (List.replicate (size / 8) 0) 0 (by simp; omega)
      exact q1.trans (by rw [written_zeros q2])

/-! A key of 16 bits: 241 * 251, public exponent 7. The block of the number 2 is not restored. -/

def smallKey : TheKey := ⟨60491, 7, 5143⟩
def smallHeap : KeyHeap := fun r => .rsa (((RSAKey.new (decide (r = 0)) 16).setTheKey true true smallKey).2)

theorem smallPair : ∃ pub priv, GeneratedPair true 16 smallKey pub priv ∧ smallHeap 0 = .rsa pub ∧ smallHeap 1 = .rsa priv :=
  ⟨_, _, ⟨1, _, _, fun _ => smallKey, rfl, rfl, rfl, rfl, rfl⟩, rfl, rfl⟩

example : ∃ s v, InitRSA smallHeap 12 1 2 s ∧ InitRSA smallHeap 12 0 1 v ∧ SignVerify smallHeap s v [2, 0] [218, 82] ∧ 2 ^ (7 * 7) % 60491 = 218 + 256 * 82 :=
  ⟨⟨⟨12, true, some 2⟩, some 1⟩, ⟨⟨12, true, some 1⟩, some 0⟩, ⟨RSACipher.new 12, rfl, by decide +kernel⟩, ⟨RSACipher.new 12, rfl, by decide +kernel⟩,
    ⟨1, [128, 0], 2, by decide +kernel, rfl, by decide +kernel⟩, by decide⟩

example : (241 : Nat).Prime ∧ (251 : Nat).Prime ∧ (60491 : Nat) = 241 * 251 ∧ 1 < 7 ∧ 7 * 7 < 241 - 1 ∧ 60491 ≤ 256 ^ (16 / 8) ∧ IsRSAKey smallKey :=
  ⟨by norm_num, by norm_num, by norm_num, by norm_num, by norm_num, by norm_num,
    ⟨241, 251, by norm_num, by norm_num, by norm_num, by norm_num [smallKey], by norm_num [smallKey], by norm_num [smallKey]⟩⟩

/-- C109: the signature can be undone with the private key only: decrypting it with the private key of a pair made from two primes restores every block, so signing is the
public operation and verifying needs the private key. -/
theorem C109_private_undoes (size : Nat) (k : TheKey) (hk : IsRSAKey k) (pub priv : RSAKey) (hp : GeneratedPair true size k pub priv) (hN : k.n ≤ 256 ^ (size / 8)) (h0 : 0 < size / 8)
    (heap : KeyHeap) (r' : Nat) (h2 : heap r' = .rsa priv) (s v : RSACipher) (hs : InitRSA heap 12 r' 2 s) (hv : InitRSA heap 12 r' 1 v)
    (M : List Int) (hM : M.length = size / 8) (hu : Unsigned M) (hx : leValue M < k.n) : SignVerify heap s v M M := by
  obtain ⟨g1, g2, g3, g4, g5, g6⟩ := generated_keys hp
  have rs := init_ready hs h2 g6
  have rv := init_ready hv h2 g6
  rw [g4] at rs
  rw [g2, g4] at rv
  obtain ⟨x, hx'⟩ : ∃ x : Nat, leValue M = x := ⟨(leValue M).toNat, by have := leValue_nonneg hu; omega⟩
  obtain ⟨y, hy1, hy2, hy3⟩ := (C98_inverts k hk).1 x (by omega)
  obtain ⟨l, sig, e1, s1, s2, s3⟩ := nopad_step rs (.inl rfl) textbookRSA [] M hM h0 y (by rw [hx']; exact hy2) (by omega)
  have hl := longToArray_length x _ h0 (by omega)
  obtain ⟨o, ho1, ho2⟩ := rsaOutput_ok (longToArray true x) (List.replicate M.length 0) 0 (by simp; omega)
  refine ⟨l, sig, (longToArray true x).length, e1, s1, ?_⟩
  have ver := rsa_doFinal rv textbookRSA true [] sig (List.replicate M.length 0) 0 M.length 0 (by omega)
  rw [if_neg (fun h => absurd h.1 (by decide)), show range sig 0 M.length = sig by simp [range, ← s1]] at ver
  simp only at ver
  rw [if_neg (by omega), if_neg (by simp), leValue_eq, s3, hy3] at ver
  simp only at ver
  rw [if_neg (fun h => absurd h.1 (by decide))] at ver
  have : o = M := by
    rw [written_zeros ho2]
    refine leValue_inj ?_ hu (by simp; omega) ?_
    · intro z hz
      rcases List.mem_append.1 hz with h | h
      · exact (longToArray_props x).1 z h
      · rw [List.eq_of_mem_replicate h]; omega
    · rw [← leValue_eq, arrayToLong_append_zeros, hx']; exact C50_py2 x
  rw [this] at ho1
  exact ver.trans ho1

end Verif.Props
