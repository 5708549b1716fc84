import Verif.Props.CryptoGen
/-! C108, continued: setting and reading key objects in the midst of any program. -/
namespace Verif.Props
open Verif.Py Verif.Model Verif.Spec

namespace CW
open CryptoWorld

/-- C108. The bytes of a DES key: after `setKey` from an array, and any program that does not set that key – which may overwrite the array –, `getKey` writes the
signed spellings of the cells as they were. -/
theorem C108_des_key (env : CryptoEnv) (w : CryptoWorld) (k : Nat) (d : DESKey) (hk : w.keys[k]? = some (.des d)) (n : Nat) (hs : d.size / 8 = n) (r so : Nat)
    (h1 : so + n ≤ (w.arrays r).length) :
    ∃ w1, w.step env (.setKey k r so) = some (.ok .nothing, w1) ∧
      ∀ P w2, w1.run env P = some w2 → (∀ s ∈ P, keyOf s ≠ some k) → ∀ (r' o : Nat), o + n ≤ (w2.arrays r').length →
        ∃ w3 vs, w2.step env (.getKey k r' o) = some (.ok .nothing, w3) ∧ Written (w2.arrays r') (w3.arrays r') o vs ∧ vs.length = n ∧
          ∀ i, (h : i < n) → ∃ s, vs[i]? = some s ∧ IsSignedOf 8 ((w.arrays r)[so + i]'(by omega)) s := by
  refine ⟨{ w with keys := w.keys.set k (.des (d.setKey (w.arrays r) so)) }, by simp only [CryptoWorld.step, hk], ?_⟩
  intro P w2 hP hn r' o ho
  have hk2 : w2.keys[k]? = some (.des (d.setKey (w.arrays r) so)) :=
    (C108_frame env _ w2 P hP).2.1 k _ hn (List.getElem?_set_self (lt_of_getElem? hk))
  obtain ⟨_, dst', vs, e1, e2, e3, e4⟩ := C51_read_back d n hs (w.arrays r) (w2.arrays r') so o h1 ho
  refine ⟨_, vs, by simp only [CryptoWorld.step, hk2, e1]; rfl, ?_, e3, e4⟩
  simpa [CryptoWorld.setArray] using e2

/-- With the library, a setter succeeds and leaves the other component alone. -/
theorem afterSet_parts (k : RSAKey) : (k.afterSet true).1 = .ok () ∧ (k.afterSet true).2.exponent = k.exponent ∧ (k.afterSet true).2.modulus = k.modulus ∧
    (k.afterSet true).2.size = k.size ∧ (k.exponent ≠ none → k.modulus ≠ none → (k.afterSet true).2.initialized = true) := by
  unfold RSAKey.afterSet
  cases hm : k.modulus with
  | none => simp [hm]
  | some m =>
    cases he : k.exponent with
    | none => simp [he, hm]
    | some e =>
      simp only
      split <;> simp

theorem getComponent_ok (k : RSAKey) (hi : k.initialized = true) (c : List Int) (buf : List Int) (o : Nat) (h : o + c.length ≤ buf.length) :
    ∃ out, k.getComponent (some c) buf o = (.ok (c.length : Int), out) ∧ Written buf out o c := by
  have hcp := arrayCopy_ok c buf 0 o c.length (by omega) h
  rw [show ((0 : Nat) : Int) = 0 from rfl, List.drop_zero, List.take_of_length_le (Nat.le_refl _)] at hcp
  refine ⟨_, ?_, written_splice buf o c h⟩
  unfold RSAKey.getComponent
  rw [if_neg (fun h => h hi)]
  simp only [hcp]

theorem getRSA_ok (env : CryptoEnv) (w : CryptoWorld) (k : Nat) (x : RSAKey) (hk : w.keys[k]? = some (.rsa x)) (hi : x.initialized = true) (exponent : Bool) (c : List Int)
    (hc : (if exponent then x.exponent else x.modulus) = some c) (r o : Nat) (h : o + c.length ≤ (w.arrays r).length) :
    ∃ w', w.step env (.getRSA k exponent r o) = some (.ok (.int c.length), w') ∧ Written (w.arrays r) (w'.arrays r) o c := by
  obtain ⟨out, e1, e2⟩ := getComponent_ok x hi c (w.arrays r) o h
  refine ⟨w.setArray r out, ?_, by simpa [CryptoWorld.setArray] using e2⟩
  cases exponent with
  | true =>
    simp only [if_true] at hc
    simp only [CryptoWorld.step, hk, if_true, RSAKey.getExponent, hc, e1]
    rfl
  | false =>
    simp only [Bool.false_eq_true, if_false] at hc
    simp only [CryptoWorld.step, hk, Bool.false_eq_true, if_false, RSAKey.getModulus, hc, e1]
    rfl

/-- C108. The components of an RSA key, with the library: after `setExponent` and `setModulus`, in either order and with any programs in between and afterwards that
do not set that key, the key is initialised and `getExponent` and `getModulus` write and count the cells as they were when set. -/
theorem C108_rsa_key (env : CryptoEnv) (hpc : env.pycrypto = true) (w : CryptoWorld) (k : Nat) (x : RSAKey) (hk : w.keys[k]? = some (.rsa x)) (first : Bool)
    (r o n : Nat) (h1 : o + n ≤ (w.arrays r).length) (hn : first = false → x.size / 8 = n) :
    ∃ w1, w.step env (.rsaKey k first r o n) = some (.ok .nothing, w1) ∧
      ∀ P w2, w1.run env P = some w2 → (∀ s ∈ P, keyOf s ≠ some k) → ∀ (r' o' n' : Nat), o' + n' ≤ (w2.arrays r').length → (first = true → x.size / 8 = n') →
        ∃ w3, w2.step env (.rsaKey k (!first) r' o' n') = some (.ok .nothing, w3) ∧
          ∀ Q w4, w3.run env Q = some w4 → (∀ s ∈ Q, keyOf s ≠ some k) → (∃ y, w4.keys[k]? = some (.rsa y) ∧ y.initialized = true) ∧ ∀ (q p : Nat),
            (p + n ≤ (w4.arrays q).length → ∃ w5, w4.step env (.getRSA k first q p) = some (.ok (.int n), w5) ∧ Written (w4.arrays q) (w5.arrays q) p (range (w.arrays r) o n)) ∧
            (p + n' ≤ (w4.arrays q).length →
              ∃ w5, w4.step env (.getRSA k (!first) q p) = some (.ok (.int n'), w5) ∧ Written (w4.arrays q) (w5.arrays q) p (range (w2.arrays r') o' n')) := by
  have sl : ∀ (l : List Int) (o n : Nat), slice l (o : Int) ((o : Int) + (n : Int)) = range l o n := fun l o n => by rw [slice_add]; rfl
  have rl : ∀ (l : List Int) (o n : Nat), o + n ≤ l.length → (range l o n).length = n := fun l o n h => by simp [range]; omega
  have hset : ∀ (w : CryptoWorld) (x : RSAKey), w.keys[k]? = some (.rsa x) → ∀ (b : Bool) (r o n : Nat), (b = false → x.size / 8 = n) →
      ∃ w1 y, w.step env (.rsaKey k b r o n) = some (.ok .nothing, w1) ∧ w1.keys[k]? = some (.rsa y) ∧ y.size = x.size ∧
        (if b then y.exponent else y.modulus) = some (range (w.arrays r) o n) ∧ (if b then y.modulus else y.exponent) = (if b then x.modulus else x.exponent) ∧
        ((if b then x.modulus else x.exponent) ≠ none → y.initialized = true) := by
    intro w x hk b r o n hb
    cases b with
    | true =>
      obtain ⟨a1, a2, a3, a4, a5⟩ := afterSet_parts { x with exponent := some (range (w.arrays r) o n) }
      refine ⟨{ w with keys := w.keys.set k (.rsa (RSAKey.afterSet true { x with exponent := some (range (w.arrays r) o n) }).2) }, _, ?_, List.getElem?_set_self (lt_of_getElem? hk), a4, a2, a3, fun h => a5 (by simp) (by simpa using h)⟩
      simp only [CryptoWorld.step, hk, RSAKey.setExponent, hpc, sl, if_true]
      rw [a1]; rfl
    | false =>
      obtain ⟨a1, a2, a3, a4, a5⟩ := afterSet_parts { x with modulus := some (range (w.arrays r) o n) }
      refine ⟨{ w with keys := w.keys.set k (.rsa (RSAKey.afterSet true { x with modulus := some (range (w.arrays r) o n) }).2) }, _, ?_, List.getElem?_set_self (lt_of_getElem? hk), a4, a3, a2, fun h => a5 (by simpa using h) (by simp)⟩
      simp only [CryptoWorld.step, hk, RSAKey.setModulus, hpc, sl, Bool.false_eq_true, if_false]
      rw [if_neg (show ¬ (n : Int) ≠ x.size / 8 by have := hb rfl; omega)]
      rw [a1]; rfl
  obtain ⟨w1, y, s1, s2, s3, s4, s5, s6⟩ := hset w x hk first r o n hn
  refine ⟨w1, s1, fun P w2 hP hPk r' o' n' h2 hn' => ?_⟩
  have y2 := (C108_frame env w1 w2 P hP).2.1 k _ hPk s2
  obtain ⟨w3, z, t1, t2, t3, t4, t5, t6⟩ := hset w2 y y2 (!first) r' o' n' (by rw [s3]; cases first <;> simp at hn' ⊢; exact hn')
  refine ⟨w3, t1, fun Q w4 hQ hQk => ?_⟩
  have z4 := (C108_frame env w3 w4 Q hQ).2.1 k _ hQk t2
  have hne : (if (!first) then y.modulus else y.exponent) = some (range (w.arrays r) o n) := by cases first <;> simpa using s4
  have zi : z.initialized = true := t6 (by rw [hne]; simp)
  refine ⟨⟨z, z4, zi⟩, fun q p => ⟨fun hq => ?_, fun hq => ?_⟩⟩
  · have := getRSA_ok env w4 k z z4 zi first (range (w.arrays r) o n) (by rw [hne] at t5; cases first <;> simpa using t5) q p (by rw [rl _ _ _ h1]; exact hq)
    rw [rl _ _ _ h1] at this
    exact this
  · have := getRSA_ok env w4 k z z4 zi (!first) (range (w2.arrays r') o' n') t4 q p (by rw [rl _ _ _ h2]; exact hq)
    rw [rl _ _ _ h2] at this
    exact this

/-- C108. `setTheKey`, with the library: after it and any program that does not set that key, the key is initialised and the getters give the little-endian bytes of
the library key's exponent and modulus (of its private exponent, for a private key). -/
theorem C108_the_key (env : CryptoEnv) (hpc : env.pycrypto = true) (w : CryptoWorld) (k : Nat) (x : RSAKey) (hk : w.keys[k]? = some (.rsa x)) (t : TheKey) :
    ∃ w1, w.step env (.setTheKey k t) = some (.ok .nothing, w1) ∧
      ∀ P w2, w1.run env P = some w2 → (∀ s ∈ P, keyOf s ≠ some k) → (∃ y, w2.keys[k]? = some (.rsa y) ∧ y.initialized = true ∧ y.theKey = some (.given t)) ∧
        ∀ (exponent : Bool) (m : Nat), m = (if exponent then t.e else if x.isPublic then t.n else t.d) → ∀ (q p : Nat),
          p + (longToArray env.longSuffix m).length ≤ (w2.arrays q).length →
          ∃ w3, w2.step env (.getRSA k exponent q p) = some (.ok (.int (longToArray env.longSuffix m).length), w3) ∧
            Written (w2.arrays q) (w3.arrays q) p (longToArray env.longSuffix m) := by
  obtain ⟨a1, a2, a3, a4, a5⟩ := afterSet_parts ({ x with theKey := some (.given t), exponent := some (longToArray env.longSuffix t.e), modulus := some (longToArray env.longSuffix (if x.isPublic then t.n else t.d)) } : RSAKey)
  refine ⟨{ w with keys := w.keys.set k (.rsa (RSAKey.afterSet true { x with theKey := some (.given t), exponent := some (longToArray env.longSuffix t.e), modulus := some (longToArray env.longSuffix (if x.isPublic then t.n else t.d)) }).2) }, ?_, ?_⟩
  · simp only [CryptoWorld.step, hk, RSAKey.setTheKey, hpc]
    rw [a1]; rfl
  · intro P w2 hP hn
    have y2 := (C108_frame env _ w2 P hP).2.1 k _ hn (List.getElem?_set_self (lt_of_getElem? hk))
    have yi := a5 (by simp) (by simp)
    refine ⟨⟨_, y2, yi, ?_⟩, fun exponent m hm q p hq => ?_⟩
    · unfold RSAKey.afterSet; simp
    · refine getRSA_ok env w2 k _ y2 yi exponent _ ?_ q p hq
      cases exponent with
      | true => rw [hm]; exact a2
      | false => rw [hm]; exact a3

/-- C108. A method the key object's class does not have is an AttributeError, and a pair for an algorithm other than RSA is refused with NO_SUCH_ALGORITHM: nothing
changes. -/
theorem C108_wrong_class (env : CryptoEnv) (w : CryptoWorld) (k : Nat) :
    (∀ x, w.keys[k]? = some (.rsa x) → ∀ r off, w.step env (.setKey k r off) = some (.error .attributeError, w) ∧ w.step env (.getKey k r off) = some (.error .attributeError, w)) ∧
    (∀ d, w.keys[k]? = some (.des d) → ∀ b r off len t, w.step env (.rsaKey k b r off len) = some (.error .attributeError, w) ∧
      w.step env (.getRSA k b r off) = some (.error .attributeError, w) ∧ w.step env (.setTheKey k t) = some (.error .attributeError, w)) ∧
    (∀ alg len, alg ≠ 1 → alg ≠ 2 → w.step env (.newPair alg len) = some (.error (.crypto 3), w)) := by
  refine ⟨fun x hx r off => ?_, fun d hd b r off len t => ?_, fun alg len h1 h2 => ?_⟩
  · simp only [CryptoWorld.step, hx]; exact ⟨trivial, trivial⟩
  · simp only [CryptoWorld.step, hd]; exact ⟨trivial, trivial, trivial⟩
  · simp only [CryptoWorld.step]
    rw [if_neg (by omega)]; rfl

/-- Key objects of both classes among others: a DES key, an RSA public key, with arrays long enough. -/
example (ops : RSAOps) (H : HashLib) : ∃ (w : CryptoWorld) (d : DESKey) (x : RSAKey), w = afterP ⟨true, true, ops, H⟩ (fun _ => List.replicate 70 9) [.buildKey [3, 64, 0], .buildKey [4, 512, 0]] ∧
    w.keys[0]? = some (.des d) ∧ d.size / 8 = 8 ∧ w.keys[1]? = some (.rsa x) ∧ x.size / 8 = 64 ∧ x.isPublic = true ∧ 3 + 64 ≤ (w.arrays 5).length := by
  exact ⟨_, _, _, rfl, rfl, rfl, rfl, rfl, rfl, by show 67 ≤ (List.replicate 70 (9 : Int)).length; decide⟩
end CW
end Verif.Props
