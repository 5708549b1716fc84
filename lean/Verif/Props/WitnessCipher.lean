import Verif.Props.Cipher
import Verif.Props.DESCipher
import Verif.Props.CipherHist
import Verif.Props.CipherAny
import Verif.Props.RSAAny
namespace Verif.Props
open Verif.Py Verif.Model Verif.Model.PyDes Verif.Spec Verif.Spec.DES

/-! # Concrete cases for C53, C55, C56, C62, C99, C106 and C107: each theorem applied to values that meet its hypotheses -/

/-- A ready RSA cipher on the key at 0. -/
def wRSACipher : RSACipher := (rsaInits (RSACipher.new 12) [⟨rsaDemo, .key 0, 2⟩])
/-- The key of `rsaDemo`. -/
def wRSAKey : RSAKey := ((RSAKey.new true 16).setTheKey true true ⟨1000, 3, 7⟩).2

example := C53_cipher rsaDemo rsaDemo (toyOps 1000) true [] wRSACipher 0 rfl wRSAKey wRSAKey rfl rfl rfl rfl rfl [3, 4, 5] [9, 9] 0 2 0
example := C53_cipher_history rsaDemo (toyOps 1000) true [] wRSACipher 0 rfl wRSAKey rfl rfl (by decide) [.setExponent [5] 0 1, .setModulus [9, 9] 0 2] rfl [3, 4, 5] [9, 9] 0 2 0
example := C53_private_unusable (fun _ => .rsa ((RSAKey.new false 16).run true true [.setExponent [5] 0 1, .setModulus [9, 9] 0 2]))
  (toyOps 1000) true [] wRSACipher 0 rfl rfl 16 [.setExponent [5] 0 1, .setModulus [9, 9] 0 2] rfl rfl [3, 4, 5] [9, 9] 0 2 0
example := C55_rsa_failed_init wRSACipher ⟨demoHeap, .key 0, 2⟩ (by rintro ⟨r, k, h1, h2, _⟩; cases h2)
example := (C55_rsa_init wRSACipher ⟨rsaDemo, .key 0, 2⟩).1 ⟨0, _, rfl, rfl, rfl, .inr rfl⟩
example := (C55_des_init (DESCipher.new 4) ⟨demoHeap, .key 0, 2, [1, 2, 3, 4, 5, 6, 7, 8, 9], 1, 8⟩).1
  ⟨0, _, _, rfl, rfl, rfl, rfl, .inr rfl, rfl, by decide, by decide⟩
example := C56_arity [1, 2, 3, 4] (by decide) (by decide)

theorem wIV : IsBlock [0, 0, 0, 0, 0, 0, 0, 7] := ⟨rfl, by decide⟩
theorem wReady (mode : Int) (hm : mode = 1 ∨ mode = 2) :
    ∃ c, Ready c 1 mode [1, 2, 3, 4, 5, 6, 7, 8, 9, 10, 11, 12, 13, 14, 15, 16] [0, 0, 0, 0, 0, 0, 0, 7] := by
  obtain ⟨e, -, e2⟩ := C62_init 1 [] demoHeap 0 _ _ mode [0, 0, 0, 0, 0, 0, 0, 0, 7] 1 rfl rfl rfl (by decide) hm (by decide)
  exact ⟨e, e2⟩
example := C62_encrypt 1 (.inl rfl) _ _ wIV _ _ (wReady 2 (.inr rfl)).choose_spec (.doFinal [1, 2] 0 9 [] 0 .new) [1, -1, 200, 4, 5, 6, 7, 8, 9] 1 8
  (by decide) (by decide)
/-- Two blocks of plaintext and their encryption. -/
theorem wEnc : ∃ c, Encrypts 1 [1, 2, 3, 4, 5, 6, 7, 8, 9, 10, 11, 12, 13, 14, 15, 16] [0, 0, 0, 0, 0, 0, 0, 7]
    [1, 2, 3, 4, 5, 6, 7, 8, 255, 0, 0, 0, 0, 0, 0, 9] c :=
  ⟨_, [[1, 2, 3, 4, 5, 6, 7, 8], [255, 0, 0, 0, 0, 0, 0, 9]], by unfold IsBlock; decide, .inl ⟨rfl, .inl rfl⟩, .inr ⟨rfl, .inl rfl⟩⟩
example := C62_refused 1 2 (.inr rfl) _ _ wIV _ _ (wReady 2 (.inr rfl)).choose_spec .new [1, -1, 200] 1 8 [0, 0] 0
example := C62_failed_init_switches_mode 1 _ _ _ (wReady 2 (.inr rfl)).choose_spec demoHeap 0 _ rfl rfl [1, 2, 3] 0 3 (by decide)

example := C99_init 1 demoCalls demoHeap (.key 0) 2 [1, 2, 3, 4, 5, 6, 7, 8] 0 8
/-- The history of `demoCalls`, ending with an `init` for encryption that fails. -/
def wCalls : List DCall := demoCalls ++ [.init demoHeap (.key 0) 2 [1, 2, 3] 0 3]
example := C99_encrypt 1 (.inl rfl) wCalls [1, 2, 3, 4, 5, 6, 7, 8, 9, 10, 11, 12, 13, 14, 15, 16] (List.replicate 8 0) (by decide) (by decide)
  [5, 6, 7, 8, 1, 2, 3, 4] (-4) 8 (.inr (by decide)) (by decide)
example := C99_refused 1 demoCalls [1, 2, 3, 4, 5, 6, 7, 8, 9, 10, 11, 12, 13, 14, 15, 16] (List.replicate 8 0) 1 (by decide) (by decide)
  [5, 6, 7] (-4) 8 [9, 9] 0
example := (C99_unready 1 demoCalls).2 [1, 2, 3, 4, 5, 6, 7, 8, 9, 10, 11, 12, 13, 14, 15, 16] (List.replicate 8 0) (by decide)
example := (C99_unready 1 [.initDefault rsaDemo (.key 0) 2]).1 (by decide)
example := C106_decrypt_any 1 (.inl rfl) demoCalls [1, 2, 3, 4, 5, 6, 7, 8, 9, 10, 11, 12, 13, 14, 15, 16] (List.replicate 8 0) (by decide) (by decide)
  [5, 6, 7, 8, 1, 2, 3, 4] (-4) 8 (.inr (by decide)) (by decide)
example := C106_reaches 1 (.inl rfl) demoCalls [1, 2, 3, 4, 5, 6, 7, 8, 9, 10, 11, 12, 13, 14, 15, 16] (List.replicate 8 0) (by decide) (by decide)
  [255, 0, 3, 4, 5, 6, 7, 8] (by decide) (by decide)
example := C106_des_verdict 1 (.inl rfl) demoCalls [5, 6, 7, 8, 1, 2, 3, 4] (-4) 8 [9, 9] 0
example := C107_refused 12 [⟨rsaDemo, .key 0, 2⟩] 0 2 (by decide) (by decide) rsaDemo _ rfl (toyOps 1000) true [] [3, 4, 5] 0 3 [9, 9] 0
example := C107_result 12 [⟨rsaDemo, .key 0, 2⟩] 0 2 (by decide) (by decide) rsaDemo wRSAKey rfl (toyOps 1000) true [] (by decide) [3, 4, 5] (-1) 2
  (.inr (by decide)) (by unfold FitsRSA; decide) (by decide) [9] (-1)
example := C107_kinds 12 [⟨rsaDemo, .key 0, 2⟩] rsaDemo (fun _ _ => ⟨_, rfl⟩) (toyOps 1000) true [] [3, 4, 5] (-1) 2 [9] 1 .arrayIndexOutOfBounds [9] (by decide)

end Verif.Props
