import Verif.Props.RSA
import Verif.Props.RSAAny
import Verif.Props.Keys
import Verif.Props.KeyPairs
import Verif.Props.Digest
/-! Concrete cases that meet the hypotheses of the theorems on keys, key pairs, RSA ciphers, digests and random data (C49-C54, C63-C66, C87, C107): each
example is the theorem, named by its proof, for the values given. -/
namespace Verif.Props
open Verif.Py Verif.Model Verif.Spec

/-! C49-C51 -/
example := C49_low_bits [255, -1, 128] [-1, 255, -128] rfl (by
  intro i h1 h2
  match i, h1 with
  | 0, _ => decide +revert
  | 1, _ => decide +revert
  | 2, _ => decide +revert)
example := C49_identity [0, 127, 128, 255] (by decide) [0, 127, -128, -1] (by unfold Bytes IsByte; decide)
example := C50_digits 0x123456 (by decide)
example := C50_bytes_back [0x12, 0, 255] (by decide)
example := C50_signed_negative [1, 127] (-128) (by unfold Bytes IsByte; decide) (by decide)
example := C51_read_back (DESKey.new 3 64) 8 (by decide) [9, 1, 2, 3, 4, 5, 6, 7, 255] (List.replicate 10 0) 1 2 (by decide) (by decide)
example := C51_short_source (DESKey.new 3 128) 16 (by decide) [9, 1, 2, 3, 4, 5, 6, 7, 255] (List.replicate 20 0) 1 2 (by decide) (by decide)

/-! C52: a 16 bit key, with a modulus of the wrong length refused in between. -/
example := C52_wrong_length true (RSAKey.new true 16) [1, 2, 3] 0 3 (by decide)
example := C52_setters_succeed true true 16 [.setExponent [3] 0 1] (.setModulus [5, 6] 0 2) (by intro b o l h; injection h with _ _ h; subst h; decide)
example := C52_uninitialised_getters (RSAKey.new true 16) rfl [0, 0] 0
example := C52_stays true true 16 [.setModulus [5, 6] 0 2, .setExponent [3] 0 1] [.clearKey, .setModulus [5] 0 1] rfl
example := C52_last_exponent true true 16 [.setModulus [5, 6] 0 2, .setExponent [3] 0 1] [.clearKey, .setModulus [7, 8] 0 2] [9, 1, 0, 1] 1 3 rfl _ rfl rfl
  (List.replicate 5 0) 2 (by decide)
example := C52_last_modulus true true 16 [.setModulus [5, 6] 0 2, .setExponent [3] 0 1] [.clearKey, .setExponent [7, 8] 0 2] [9, 1, 0, 1] 1 2 (by decide) rfl _ rfl rfl
  (List.replicate 5 0) 2 (by decide)

/-! C53, C54 -/
private def full : RSAKey := (RSAKey.new true 16).run true true [.setModulus [5, 6] 0 2, .setExponent [3] 0 1]
example := C53_sticky true full [.setModulus [7, 7] 0 2, .clearKey] rfl (by decide)
example := C53_first_pair true 16 [.setModulus [1] 0 1, .setModulus [5, 6] 0 2] [.setModulus [7, 7] 0 2] (.setExponent [3] 0 1) rfl rfl rfl
example := C53_private_never true 16 [.setModulus [5, 6] 0 2, .setExponent [3] 0 1] rfl
example := C54_buildKey_arity [3, 64] (by decide)
example := C54_genKeyPair true (fun _ => ⟨3233, 17, 413⟩) (fun _ => ⟨3127, 3, 2011⟩) 1 512 _ rfl

/-! C63, C64: the toy library whose decryption undoes its encryption below 2^96. -/
example := C63_too_long [5, 6, 7] 96 [1, 2] (by decide)
example := C63_block [0, 5, 0, 6, 7, 8, 9, 10, 11, 12, 13] (by decide) 96 [42] (by decide)
example := C63_unpad_block 12 [42] [0, 2, 5, 6, 7, 8, 9, 10, 11, 12, 0, 42] ⟨[5, 6, 7, 8, 9, 10, 11, 12], rfl, by decide, by decide, by decide⟩
example := C63_roundtrip [0, 5, 0, 6, 7, 8, 9, 10, 11, 12, 13] (by decide) 96 [42] [0, 2, 5, 6, 7, 8, 9, 10, 11, 12, 0, 42] (by decide +kernel)

private def pubHeap : KeyHeap := fun _ => .rsa ((RSAKey.new true 96).setTheKey true true ⟨1000, 3, 7⟩).2
private def privHeap : KeyHeap := fun _ => .rsa ((RSAKey.new false 96).setTheKey true true ⟨1000, 3, 7⟩).2
private def cip (heap : KeyHeap) (alg mode : Int) : RSACipher := ((RSACipher.new alg).init heap (.key 5) mode).2
private theorem pubReady (alg mode : Int) (hm : mode = 1 ∨ mode = 2) : RSAReady pubHeap (cip pubHeap alg mode) alg mode true 96 (.given ⟨1000, 3, 7⟩) :=
  (C64_ready pubHeap alg mode 5 ((RSAKey.new true 96).setTheKey true true ⟨1000, 3, 7⟩).2 (.given ⟨1000, 3, 7⟩) hm rfl rfl rfl).2
private theorem privReady (alg mode : Int) (hm : mode = 1 ∨ mode = 2) : RSAReady privHeap (cip privHeap alg mode) alg mode false 96 (.given ⟨1000, 3, 7⟩) :=
  (C64_ready privHeap alg mode 5 ((RSAKey.new false 96).setTheKey true true ⟨1000, 3, 7⟩).2 (.given ⟨1000, 3, 7⟩) hm rfl rfl rfl).2
/-- The text 42, padded with bytes of which every other is a zero, encrypted for the private key. -/
example := C64_pkcs1_roundtrip pubHeap privHeap (cip pubHeap 10 2) (cip privHeap 10 1) true 96 (.given ⟨1000, 3, 7⟩) (.given ⟨1000, 3, 7⟩) (256 ^ 12)
  (pubReady 10 2 (.inr rfl)) (privReady 10 1 (.inl rfl)) (toyOps (256 ^ 12)) (toy_inverts _ _ _) (by decide) [0, 5, 0, 6, 7, 8, 9, 10, 11, 12, 13] [] (by decide)
  [1, 42, 3] (List.replicate 14 0) 1 1 2 (by decide) (by unfold Unsigned; decide) [0, 2, 5, 6, 7, 8, 9, 10, 11, 12, 0, 42] (by decide +kernel) (by decide +kernel) (by decide)
example := C64_nopad_roundtrip pubHeap privHeap (cip pubHeap 12 2) (cip privHeap 12 1) true 96 (.given ⟨1000, 3, 7⟩) (.given ⟨1000, 3, 7⟩) (256 ^ 12)
  (pubReady 12 2 (.inr rfl)) (privReady 12 1 (.inl rfl)) (toyOps (256 ^ 12)) (toy_inverts _ _ _) (by decide) (by decide) [] [] [9, 1, 2, 3, 4, 5, 6, 7, 8, 9, 10, 11, 200]
  (List.replicate 14 0) 1 2 (by decide) (by unfold Unsigned; decide) (by decide +kernel) (by decide)
example := C64_wrong_length pubHeap (cip pubHeap 12 2) 12 2 true 96 _ (pubReady 12 2 (.inr rfl)) (toyOps 1000) true [] [1, 2, 3] [0] 1 2 0 (by decide)
example := C64_short_ciphertext privHeap (cip privHeap 12 1) 12 false 96 _ (privReady 12 1 (.inl rfl)) (toyOps 1000) [] 300 (by decide) (by decide) [9, 44, 1] [0] 1 0
  (by decide)
example := C64_signed_input pubHeap (cip pubHeap 12 2) true 96 _ (pubReady 12 2 (.inr rfl)) ⟨fun _ v => if v < 0 then .error .valueError else .ok 5, fun _ _ => .ok 0⟩
  (fun v hv => if_pos hv) true [] [1, 2, 3, 4, 5, 6, 7, 8, 9, 10, 127] [0] (by unfold Bytes IsByte; decide) (-1) (by decide) (by decide) 0

/-! C66 -/
example := C66_generate (fun j => 250 + j) [1, 2, 3, 4, 5] 2 2 (by decide)
example := C66_unsigned (fun j => (250 + j) % 256) (by omega) [1, 2, 3, 4, 5] 2 3 (by decide) (by decide)
example := C65_history (fun _ m => [m.length % 256, 7]) 1 2 (fun m => ⟨rfl, by intro x hx; simp at hx; omega⟩) _ rfl
  [.update [1, 2, 3] 0 2, .update [4] 3 1, .reset, .update [5] 0 1] [9, 8] 1 1 (by decide) (List.replicate 4 0) 1 (by decide)

/-! C87: a generated pair, a pair of given keys, and one that failed to be made. -/
private def pairOps : List KeyWorld.Op := [.pair 1 512, .pair 7 512, .build true 8, .build false 8, .gen 0 ⟨3233, 17, 413⟩, .pair 2 512]
private def pairs : KeyWorld := KeyWorld.run true true ⟨[], []⟩ pairOps
example := C87_own_calls true true pairs [.key 2 (.setExponent [3] 0 1), .key 0 .clearKey] 2 _ rfl
example := C87_roles true true pairOps pairs rfl 0 (by decide)
example := C87_generate true pairOps pairs rfl 1 _ rfl (by decide) (by decide) (by decide) ⟨3127, 3, 2011⟩
example := C87_ofKeys_kinds true true pairs 2 3 _ _ rfl rfl
example := C87_without_pycrypto true [.pair 1 512, .build true 8] _ rfl 0 (by decide) ⟨3233, 17, 413⟩

end Verif.Props
