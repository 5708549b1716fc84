import Verif.Props.TextbookRSA
/-! C100: exporting the public key of a generated pair and rebuilding it elsewhere. -/
namespace Verif.Props
open Verif.Py Verif.Model Verif.Spec

theorem range_written {old new vs : List Int} {off : Nat} (h : Written old new off vs) : range new off vs.length = vs := by
  obtain ⟨h1, h2, h3, _⟩ := h
  unfold range
  apply List.ext_getElem?
  intro i
  rw [List.getElem?_take, List.getElem?_drop]
  by_cases hi : i < vs.length
  · rw [if_pos hi, h3 i hi, List.getElem?_eq_getElem hi]
  · rw [if_neg hi, List.getElem?_eq_none (by omega)]

/-- A key pair made by `KeyPair(algorithm, size)` and `genKeyPair()`. -/
theorem genKeyPair_shape (ls : Bool) (generate : Int → TheKey) (alg size : Int) (p p' : KeyPair) (hp : KeyPair.new alg size = .ok p)
    (hg : p.genKeyPair true ls generate = (.ok (), p')) :
    p'.publicKey = ⟨true, true, size, 4, some (longToArray ls (generate size).e), some (longToArray ls (generate size).n), some (.given (generate size))⟩ ∧
    p'.privateKey = ⟨false, true, size, 5, some (longToArray ls (generate size).e), some (longToArray ls (generate size).d), some (.given (generate size))⟩ := by
  unfold KeyPair.new at hp
  have hres : ∃ alg', (alg' = 1 ∨ alg' = 2) ∧ p = ⟨some alg', some size, RSAKey.new true size, RSAKey.new false size⟩ := by
    by_cases h1 : alg = 1
    · rw [if_pos h1] at hp; injection hp with hp; exact ⟨alg, .inl h1, hp.symm⟩
    · rw [if_neg h1] at hp
      by_cases h2 : alg = 2
      · rw [if_pos h2] at hp; injection hp with hp; exact ⟨alg, .inr h2, hp.symm⟩
      · rw [if_neg h2] at hp; cases hp
  obtain ⟨alg', ha, he⟩ := hres
  subst he
  unfold KeyPair.genKeyPair at hg
  rw [if_neg (by simp [RSAKey.new]), if_neg (by simp)] at hg
  simp only at hg
  rw [if_neg (by omega)] at hg
  have hg := congrArg Prod.snd hg
  simp only [RSAKey.setTheKey, RSAKey.afterSet, RSAKey.new] at hg
  rw [← hg]
  exact ⟨rfl, rfl⟩

/-- The two setters, in either order, on a new public key object. -/
theorem rebuild (size : Nat) (bm be M E : List Int) (om oe : Nat) (hM : range bm om M.length = M) (hE : range be oe E.length = E)
    (hl : M.length = size / 8) :
    let k2 : RSAKey := ⟨true, true, size, 4, some E, some M, some (.constructed (arrayToLong M) (arrayToLong E))⟩
    (∃ k1, (RSAKey.new true size).setModulus true bm om M.length = (.ok (), k1) ∧ k1.setExponent true be oe E.length = (.ok (), k2)) ∧
    (∃ k1, (RSAKey.new true size).setExponent true be oe E.length = (.ok (), k1) ∧ k1.setModulus true bm om M.length = (.ok (), k2)) := by
  have sM : slice bm om ((om : Int) + M.length) = M := by rw [slice_add]; exact hM
  have sE : slice be oe ((oe : Int) + E.length) = E := by rw [slice_add]; exact hE
  have hlen : ¬ ((M.length : Int) ≠ (size : Int) / 8) := by omega
  intro k2
  constructor
  · refine ⟨⟨true, false, size, 4, none, some M, none⟩, ?_, ?_⟩
    · unfold RSAKey.setModulus
      rw [if_neg (by exact hlen), sM]
      rfl
    · unfold RSAKey.setExponent
      rw [sE]
      rfl
  · refine ⟨⟨true, false, size, 4, some E, none, none⟩, ?_, ?_⟩
    · unfold RSAKey.setExponent
      rw [sE]
      rfl
    · unfold RSAKey.setModulus
      rw [if_neg (by exact hlen), sM]
      rfl

/-- What the two getters of the generated public key hand out, rebuilt: on either Python. -/
theorem export_any (ls : Bool) (generate : Int → TheKey) (alg : Int) (size : Nat) (p p' : KeyPair) (hp : KeyPair.new alg size = .ok p)
    (hg : p.genKeyPair true ls generate = (.ok (), p')) (hlen : (longToArray ls (generate size).n).length = size / 8)
    (bm be : List Int) (om oe : Nat) (hm : om + size / 8 ≤ bm.length) (he : oe + (longToArray ls (generate size).e).length ≤ be.length) (x : Int) :
    ∃ bm' be' k0 k2, p'.publicKey.getModulus bm om = (.ok ((size / 8 : Nat) : Int), bm') ∧
      p'.publicKey.getExponent be oe = (.ok ((longToArray ls (generate size).e).length : Int), be') ∧
      buildKey [4, size, x] = .ok (some (.rsa k0)) ∧
      (∃ k1, k0.setModulus true bm' om ((size / 8 : Nat) : Int) = (.ok (), k1) ∧
        k1.setExponent true be' oe ((longToArray ls (generate size).e).length : Int) = (.ok (), k2)) ∧
      (∃ k1, k0.setExponent true be' oe ((longToArray ls (generate size).e).length : Int) = (.ok (), k1) ∧
        k1.setModulus true bm' om ((size / 8 : Nat) : Int) = (.ok (), k2)) ∧
      k2.initialized = true ∧ k2.isPublic = true ∧ k2.size = size ∧
      k2.theKey = some (.constructed (arrayToLong (longToArray ls (generate size).n)) (arrayToLong (longToArray ls (generate size).e))) := by
  obtain ⟨e1, _⟩ := genKeyPair_shape ls generate alg size p p' hp hg
  obtain ⟨bm', g1, w1⟩ := component_get p'.publicKey (longToArray ls (generate size).n) (by rw [e1]) bm om (by omega)
  obtain ⟨be', g2, w2⟩ := component_get p'.publicKey (longToArray ls (generate size).e) (by rw [e1]) be oe (by omega)
  obtain ⟨r1, r2⟩ := rebuild size bm' be' _ _ om oe (range_written w1) (range_written w2) hlen
  refine ⟨bm', be', RSAKey.new true size, ⟨true, true, size, 4, some (longToArray ls (generate size).e), some (longToArray ls (generate size).n),
    some (.constructed (arrayToLong (longToArray ls (generate size).n)) (arrayToLong (longToArray ls (generate size).e)))⟩, ?_, ?_, rfl, ?_, ?_, rfl, rfl, rfl, rfl⟩
  · unfold RSAKey.getModulus
    rw [← hlen, ← g1, e1]
  · unfold RSAKey.getExponent
    rw [← g2, e1]
  · rw [← hlen]; exact r1
  · rw [← hlen]; exact r2

/-- C100, Python 2. After `KeyPair(alg, size)` and `genKeyPair()`, the bytes that `getModulus` and `getExponent` of the public key write
into any two arrays, given in either order to the setters of a new public key of that size, make a key with the same modulus and public
exponent. -/
theorem C100_export (generate : Int → TheKey) (alg : Int) (size : Nat) (p p' : KeyPair) (hp : KeyPair.new alg size = .ok p)
    (hg : p.genKeyPair true true generate = (.ok (), p')) (k : TheKey) (hk : generate size = k) (h0 : 0 < size / 8)
    (hlo : 256 ^ (size / 8 - 1) ≤ k.n) (hhi : k.n < 256 ^ (size / 8)) (m : Nat) (hm0 : 0 < m) (hem : k.e < 256 ^ m)
    (bm be : List Int) (om oe : Nat) (hm : om + size / 8 ≤ bm.length) (he : oe + m ≤ be.length) (x : Int) :
    ∃ bm' be' k0 k2, ∃ l : Nat, l ≤ m ∧ p'.publicKey.getModulus bm om = (.ok ((size / 8 : Nat) : Int), bm') ∧
      p'.publicKey.getExponent be oe = (.ok (l : Int), be') ∧
      buildKey [4, size, x] = .ok (some (.rsa k0)) ∧
      (∃ k1, k0.setModulus true bm' om ((size / 8 : Nat) : Int) = (.ok (), k1) ∧ k1.setExponent true be' oe l = (.ok (), k2)) ∧
      (∃ k1, k0.setExponent true be' oe l = (.ok (), k1) ∧ k1.setModulus true bm' om ((size / 8 : Nat) : Int) = (.ok (), k2)) ∧
      k2.initialized = true ∧ k2.isPublic = true ∧ k2.size = size ∧ k2.theKey = some (.constructed k.n k.e) := by
  subst hk
  have hl := longToArray_length_full _ _ hlo hhi h0
  have hle := longToArray_length _ m hm0 hem
  obtain ⟨bm', be', k0, k2, a1, a2, a3, a4, a5, a6, a7, a8, a9⟩ := export_any true generate alg size p p' hp hg hl bm be om oe hm (by omega) x
  rw [C50_py2, C50_py2] at a9
  exact ⟨bm', be', k0, k2, _, hle, a1, a2, a3, a4, a5, a6, a7, a8, a9⟩

/-- C100, Python 3. The same program succeeds call by call, but the rebuilt key has modulus `n // 16` and exponent `e // 16`: never the
key that was generated. -/
theorem C100_py3 (generate : Int → TheKey) (alg : Int) (size : Nat) (p p' : KeyPair) (hp : KeyPair.new alg size = .ok p)
    (hg : p.genKeyPair true false generate = (.ok (), p')) (k : TheKey) (hk : generate size = k) (h0 : 0 < size / 8)
    (hlo : 16 * 256 ^ (size / 8 - 1) ≤ k.n) (hhi : k.n < 256 ^ (size / 8)) (m : Nat) (hm0 : 0 < m) (hem : k.e < 256 ^ m)
    (bm be : List Int) (om oe : Nat) (hm : om + size / 8 ≤ bm.length) (he : oe + m ≤ be.length) (x : Int) :
    ∃ bm' be' k0 k2, ∃ l : Nat, p'.publicKey.getModulus bm om = (.ok ((size / 8 : Nat) : Int), bm') ∧
      p'.publicKey.getExponent be oe = (.ok (l : Int), be') ∧
      buildKey [4, size, x] = .ok (some (.rsa k0)) ∧
      (∃ k1, k0.setModulus true bm' om ((size / 8 : Nat) : Int) = (.ok (), k1) ∧ k1.setExponent true be' oe l = (.ok (), k2)) ∧
      k2.initialized = true ∧ k2.theKey = some (.constructed (k.n / 16 : Nat) (k.e / 16 : Nat)) ∧ k2.theKey ≠ some (.constructed k.n k.e) := by
  subst hk
  have hpos : 0 < 256 ^ (size / 8 - 1) := Nat.pow_pos (by omega)
  have hl : (longToArray false (generate size).n).length = size / 8 := by
    rw [longToArray_no_suffix, if_neg (by omega)]
    exact longToArray_length_full _ _ (by omega) (by omega) h0
  have hle : (longToArray false (generate size).e).length ≤ m := by
    rw [longToArray_no_suffix]
    split
    · simp
    · exact longToArray_length _ m hm0 (by omega)
  obtain ⟨bm', be', k0, k2, a1, a2, a3, a4, a5, a6, a7, a8, a9⟩ := export_any false generate alg size p p' hp hg hl bm be om oe hm (by omega) x
  rw [C50_py3, C50_py3] at a9
  refine ⟨bm', be', k0, k2, _, a1, a2, a3, a4, a6, a9, ?_⟩
  rw [a9]
  intro h
  injection h with h
  injection h with h _
  omega

/-- C100. Ciphering with the rebuilt key: what a PKCS#1 cipher encrypts under the exported public key, one holding the pair's private key
decrypts (RSA taken to be modular exponentiation, Python 2). `r`, `r'` are the key objects of the other side and of the pair. -/
theorem C100_encrypt (generate : Int → TheKey) (alg : Int) (size : Nat) (p p' : KeyPair) (hp : KeyPair.new alg size = .ok p)
    (hg : p.genKeyPair true true generate = (.ok (), p')) (k : TheKey) (hk : generate size = k) (hrsa : IsRSAKey k)
    (hlo : 256 ^ (size / 8 - 1) ≤ k.n) (hhi : k.n < 256 ^ (size / 8)) (m : Nat) (hm0 : 0 < m) (hem : k.e < 256 ^ m)
    (bm be bm' be' : List Int) (om oe lm le : Nat) (hm : om + size / 8 ≤ bm.length) (he : oe + m ≤ be.length) (x : Int)
    -- the program: export, rebuild, make the two ciphers
    (x1 : p'.publicKey.getModulus bm om = (.ok (lm : Int), bm')) (x2 : p'.publicKey.getExponent be oe = (.ok (le : Int), be'))
    (k0 k1 k2 : RSAKey) (x3 : buildKey [4, size, x] = .ok (some (.rsa k0))) (x4 : k0.setModulus true bm' om lm = (.ok (), k1))
    (x5 : k1.setExponent true be' oe le = (.ok (), k2))
    (heap heap' : KeyHeap) (r r' : Nat) (hr : heap r = .rsa k2) (hr' : heap' r' = .rsa p'.privateKey) (c c' : RSACipher)
    (hc : (RSACipher.new 10).init heap (.key r) 2 = (.ok (), c)) (hc' : (RSACipher.new 10).init heap' (.key r') 1 = (.ok (), c'))
    (rnd rnd' : List Nat) (hrnd : ∀ b ∈ rnd, b < 256) (M : List Int) (hM : M ≠ []) (hu : Unsigned M) (hlast : M.getLast hM ≠ 0)
    (hlen : M.length + 11 ≤ size / 8) (htop : (M.getLast hM + 1) * 256 ^ (size / 8 - 1) ≤ (k.n : Int))
    (hcount : size / 8 ≤ M.length + 3 + rnd.countP (· ≠ 0)) :
    ∃ ct out, c.doFinal heap textbookRSA true rnd M 0 M.length (List.replicate (size / 8) 0) 0 = some (.ok (ct.length : Int), out) ∧
      ct.length ≤ size / 8 ∧ out = ct ++ List.replicate (size / 8 - ct.length) 0 ∧
      c'.doFinal heap' textbookRSA true rnd' out 0 (size / 8 : Nat) (List.replicate M.length 0) 0 = some (.ok (M.length : Int), M) := by
  obtain ⟨bm1, be1, j0, j2, l, _, a1, a2, a3, ⟨j1, a4, a4'⟩, _, a6, a7, a8, a9⟩ :=
    C100_export generate alg size p p' hp hg k hk (by omega) hlo hhi m hm0 hem bm be om oe hm he x
  rw [a1] at x1
  injection x1 with y1 y2
  injection y1 with y1
  have y1 : size / 8 = lm := by omega
  subst y1 y2
  rw [a2] at x2
  injection x2 with y1 y2
  injection y1 with y1
  have y1 : l = le := by omega
  subst y1 y2
  rw [a3] at x3
  injection x3 with x3
  injection x3 with x3
  injection x3 with x3
  subst x3
  rw [a4] at x4
  injection x4 with _ x4
  subst x4
  rw [a4'] at x5
  injection x5 with _ x5
  subst x5
  obtain ⟨_, e2⟩ := genKeyPair_shape true generate alg size p p' hp hg
  have q1 := (C64_ready heap 10 2 r j2 _ (by omega) hr a6 a9).2
  have q2 := (C64_ready heap' 10 1 r' p'.privateKey (.given k) (by omega) hr' (by rw [e2]) (by rw [e2, hk])).2
  rw [hc] at q1
  rw [hc'] at q2
  rw [a7, a8] at q1
  rw [e2] at q2
  exact roundtrip_of_inverts textbookRSA k.n _ _ (C98_inverts k hrsa).2 size (by omega) heap heap' c c' true q1 q2 rnd rnd' hrnd M hM hu hlast hlen htop hcount

/-- C100. The private key of the pair exports the public exponent as its exponent and the private exponent as its modulus. -/
theorem C100_private (generate : Int → TheKey) (alg : Int) (size : Nat) (p p' : KeyPair) (hp : KeyPair.new alg size = .ok p)
    (hg : p.genKeyPair true true generate = (.ok (), p')) (k : TheKey) (hk : generate size = k)
    (b : List Int) (o m : Nat) (hm0 : 0 < m) (hm : o + m ≤ b.length) :
    (k.d < 256 ^ m → ∃ b' w, p'.privateKey.getModulus b o = (.ok (w.length : Int), b') ∧ Written b b' o w ∧ arrayToLong w = k.d) ∧
    (k.e < 256 ^ m → ∃ b' w, p'.privateKey.getExponent b o = (.ok (w.length : Int), b') ∧ Written b b' o w ∧ arrayToLong w = k.e) := by
  obtain ⟨_, e2⟩ := genKeyPair_shape true generate alg size p p' hp hg
  subst hk
  constructor
  · intro hd
    have hl := longToArray_length _ m hm0 hd
    obtain ⟨b', g, w⟩ := component_get p'.privateKey (longToArray true (generate size).d) (by rw [e2]) b o (by omega)
    refine ⟨b', _, ?_, w, C50_py2 _⟩
    unfold RSAKey.getModulus
    rw [← g, e2]
  · intro hd
    have hl := longToArray_length _ m hm0 hd
    obtain ⟨b', g, w⟩ := component_get p'.privateKey (longToArray true (generate size).e) (by rw [e2]) b o (by omega)
    refine ⟨b', _, ?_, w, C50_py2 _⟩
    unfold RSAKey.getExponent
    rw [← g, e2]

/-- C100. A private key rebuilt from components, whatever they are, is initialised and accepted by `init` of every RSA cipher, but
`doFinal` then raises `AttributeError` on data of the right length and writes nothing. -/
theorem C100_private_rebuilt (ls : Bool) (size alg mode : Int) (hist : List RSAKey.Op) (hn : hist.any InstallsKey = false)
    (hE : hist.any SetsExponent = true) (hM : hist.any (SetsModulus size) = true) (hm : mode = 1 ∨ mode = 2)
    (heap : KeyHeap) (r : Nat) (hk : heap r = .rsa ((RSAKey.new false size).run true ls hist)) :
    ∃ c, (RSACipher.new alg).init heap (.key r) mode = (.ok (), c) ∧
      ∀ (ops : RSAOps) (rnd : List Nat) (inB outB : List Int) (io n : Nat) (oo : Int), io + n ≤ inB.length → ¬ (alg = 10 ∧ mode = 2) →
        size / 8 = n →
        c.doFinal heap ops ls rnd inB io n outB oo = some (.error .attributeError, outB) := by
  have hi : ((RSAKey.new false size).run true ls hist).initialized = true := (C52_initialized_iff ls false size hist).2 ⟨hE, hM⟩
  have ht := C53_private_never ls size hist hn
  have hs : ((RSAKey.new false size).run true ls hist).size = size := (rsa_run ls (RSAKey.new false size) hist rfl).2.1
  generalize (RSAKey.new false size).run true ls hist = k at hk hi ht hs
  have hi' : (KeyObj.rsa k).isInitialized = true := hi
  have hm' : mode = MODE_ENCRYPT ∨ mode = MODE_DECRYPT := by unfold MODE_ENCRYPT MODE_DECRYPT; omega
  refine ⟨⟨⟨alg, true, some mode⟩, some r⟩, by simp [RSACipher.init, CipherBase.init, hi', hm', hk, RSACipher.new, CipherBase.new], ?_⟩
  intro ops rnd inB outB io n oo hin hne hsz
  unfold RSACipher.doFinal
  rw [if_neg (by simp), Option.map_some, hk]
  simp only
  rw [(data_copy inB io n).1 hin]
  simp only [Option.some.injEq, MODE_ENCRYPT, Option.some.injEq]
  rw [if_neg hne]
  simp only
  have hl : (range inB io n).length = n := by unfold range; simp; omega
  rw [if_neg (by rw [hl, hs, hsz]; simp), ht]

/-! Concrete cases: a 16-bit toy modulus for the export, and the hypotheses of `C100_encrypt` met by a 1024-bit key. -/
def toyKey : TheKey := ⟨251 * 241, 7, 17143⟩

example : IsRSAKey toyKey := ⟨251, 241, by norm_num, by norm_num, by decide, rfl, by decide, by decide⟩
example : 16 * 256 ^ (16 / 8 - 1) ≤ toyKey.n ∧ toyKey.n < 256 ^ (16 / 8) ∧ toyKey.e < 256 ^ 1 := by decide
example : ∃ p p', KeyPair.new 1 16 = .ok p ∧ p.genKeyPair true true (fun _ => toyKey) = (.ok (), p') ∧
    p'.publicKey.getModulus [0, 0, 0] 1 = (.ok 2, [0, 75, 236]) ∧ p'.publicKey.getExponent [0, 0] 1 = (.ok 1, [0, 7]) := by
  refine ⟨_, _, rfl, rfl, ?_, ?_⟩ <;> decide +kernel
example : (RSAKey.new true 16).setModulus true [0, 75, 236] 1 2 = (.ok (), ⟨true, false, 16, 4, none, some [75, 236], none⟩) ∧
    RSAKey.setExponent true ⟨true, false, 16, 4, none, some [75, 236], none⟩ [0, 7] 1 1 =
      (.ok (), ⟨true, true, 16, 4, some [7], some [75, 236], some (.constructed (251 * 241) 7)⟩) := by decide +kernel
example : ∃ k : TheKey, IsRSAKey k ∧ 256 ^ (1024 / 8 - 1) ≤ k.n ∧ k.n < 256 ^ (1024 / 8) ∧ k.e < 256 ^ 128 ∧
    ((0x1f : Int) + 1) * 256 ^ (1024 / 8 - 1) ≤ (k.n : Int) := by
  obtain ⟨k, h1, h2, h3, _, _, h4⟩ := exists_big_key
  exact ⟨k, h1, by norm_num; omega, h2, by omega, by norm_num; omega⟩
example : ([.setExponent [3] 0 1, .setModulus [75, 236] 0 2] : List RSAKey.Op).any InstallsKey = false ∧
    ([.setExponent [3] 0 1, .setModulus [75, 236] 0 2] : List RSAKey.Op).any (SetsModulus 16) = true := by decide

end Verif.Props
