import Verif.Props.DES
import Verif.Props.TripleDES
import Verif.Props.DESAlg
import Verif.Props.DESSetters
/-! Concrete cases that meet the hypotheses of the theorems on the DES library (C57-C61, C73-C80): each example is the theorem, named by its proof, for the
values given. -/
namespace Verif.Props
open Verif.Py Verif.Model Verif.Model.PyDes Verif.Spec.DES

private def k1 : List Nat := [0x13, 0x34, 0x57, 0x79, 0x9B, 0xBC, 0xDF, 0xF1]
private def k2 : List Nat := [0x01, 0x23, 0x45, 0x67, 0x89, 0xAB, 0xCD, 0xEF]
private def iv1 : List Nat := [9, 8, 7, 6, 5, 4, 3, 255]
private theorem iv1_block : IsBlock iv1 := ⟨rfl, by decide⟩
private theorem k1_block : IsBlock k1 := ⟨rfl, by decide⟩
private theorem k2_block : IsBlock k2 := ⟨rfl, by decide⟩
private def blocks2 : List (List Nat) := [[1, 2, 3, 4, 5, 6, 7, 8], [0, 0, 255, 254, 128, 127, 1, 0]]
private theorem blocks2_ok : ∀ b ∈ blocks2, IsBlock b := by
  intro b hb
  simp only [blocks2, List.mem_cons, List.not_mem_nil, or_false] at hb
  rcases hb with rfl | rfl <;> exact ⟨rfl, by decide⟩
private def text16 : List Nat := [1, 2, 3, 4, 5, 6, 7, 8, 0, 0, 255, 254, 128, 127, 1, 0]
private def text5 : List Nat := [72, 101, 0, 255, 32]

/-! C57-C60 -/
example := C59_ecb k1 iv1 rfl (.inr rfl) blocks2 blocks2_ok
example := C59_cbc k1 iv1 rfl iv1_block blocks2 blocks2_ok
example := C57_standard k1 k2 k2_block
example := C58_block k1 k2 rfl k2_block
example := C57_library k1 k2 rfl k2_block
example := C59_roundtrip k1 iv1 1 (.inr rfl) rfl iv1_block text16 rfl (by decide)
example := C59_other_lengths k1 iv1 0 _ ((C59_constructor k1 0 iv1 none 1).1 ⟨rfl, .inr rfl, by decide⟩) text5 (by decide)
example := C59_cbc_without_iv k1 rfl
example := C60_padding k1 iv1 1 rfl iv1_block text5
example := C60_roundtrip k1 iv1 1 (.inr rfl) rfl iv1_block text5 (by decide)
example := C60_unvalidated k1 iv1 1 rfl iv1_block text16 (text16.take 15) 3
example := C60_zero_deletes k1 iv1 rfl iv1_block

/-! C73: a message that ends with the pad character, and one that does not. -/
example := C73_pad_character k1 iv1 1 32 (.inr rfl) rfl iv1_block (by decide) text5 (by decide)
example := C73_pad_character k1 iv1 0 255 (.inl rfl) rfl iv1_block (by decide) text5 (by decide)
example := C73_lost_byte k1 iv1 rfl iv1_block

/-! C61: a triple DES object that has already encrypted, decrypted and failed. -/
private def key24 : List Nat := k1 ++ k2 ++ iv1
private def key16 : List Nat := k1 ++ k2

/-- After an encryption and a decryption, both successful. -/
private theorem used (mode padmode : Nat) (hp : padmode = 1 ∨ padmode = 2) :
    ∃ t0 t, Triple.new key24 mode iv1 none padmode = .ok t0 ∧ Used t0 t ∧ t0.encrypt text16 none none ≠ .error .valueError := by
  obtain ⟨t0, h0⟩ := (C61_constructor key24 mode iv1 padmode).2.2 (.inr rfl) rfl
  rcases hp with rfl | rfl
  · obtain ⟨c, t1, h1, _, _, h4⟩ := C61_roundtrip key24 iv1 mode (.inr rfl) iv1_block t0 t0 h0 .new text16 rfl (by decide)
    obtain ⟨t2, h5⟩ := h4 t1 (.encrypt .new h1)
    exact ⟨t0, t2, h0, .decrypt (.encrypt .new h1) h5, by rw [h1]; simp⟩
  · obtain ⟨c, t1, h1, _, _, h4⟩ := C61_pkcs5 key24 iv1 mode (.inr rfl) iv1_block t0 t0 h0 .new text16 (by decide)
    obtain ⟨t2, h5⟩ := h4 t1 (.encrypt .new h1)
    exact ⟨t0, t2, h0, .decrypt (.encrypt .new h1) h5, by rw [h1]; simp⟩

example := C61_default_iv key16 (.inl rfl) 2
example : ∃ t0 t, Triple.new key24 0 iv1 none 1 = .ok t0 ∧ Used t0 t ∧
    ∃ t', t.encrypt blocks2.flatten none none = .ok ((ecb (encipher3 k1 k2 iv1) blocks2).flatten, t') := by
  obtain ⟨t0, t, h0, h, _⟩ := used 0 1 (.inl rfl)
  exact ⟨t0, t, h0, h, (C61_ecb key24 iv1 (.inr rfl) rfl t0 t h0 h blocks2 blocks2_ok).1⟩
example : ∃ t0 t, Triple.new key24 1 iv1 none 1 = .ok t0 ∧ Used t0 t ∧
    ∃ t', t.decrypt blocks2.flatten none none = .ok ((cbcDecrypt (decipher3 k1 k2 iv1) iv1 blocks2).flatten, t') := by
  obtain ⟨t0, t, h0, h, _⟩ := used 1 1 (.inl rfl)
  exact ⟨t0, t, h0, h, (C61_cbc key24 iv1 (.inr rfl) iv1_block t0 t h0 h blocks2 blocks2_ok).2⟩
example := C61_standard k1 k2 iv1 k2 k2_block
example := C61_single k1 k2 k2_block
example : ∃ t0 t, Triple.new key24 1 iv1 none 1 = .ok t0 ∧ Used t0 t ∧ t.encrypt text5 none none = .error .valueError := by
  obtain ⟨t0, t, h0, h, _⟩ := used 1 1 (.inl rfl)
  exact ⟨t0, t, h0, h, (C61_other_lengths key24 iv1 1 (.inr rfl) iv1_block t0 t h0 h text5 (by decide) (by decide)).1⟩

/-! C74-C78 -/
example := C74_triple key24 (key24.map fun x => x / 2 * 2) (by decide) 1 iv1 none 2 (.inl (by decide))
example := C74_triple_default_iv key16 (key16.map fun x => x / 2 * 2) (by decide) (.inl rfl) 2
example := C75_standard k1 k2 k1_block k2_block
example := C75_library k1 text16 k1_block rfl (by decide)
example := C75_triple k1 k2 iv1 k2 k1_block k2_block iv1_block k2_block
private def weak : List Nat := (inversePairs.getD 5 ([], [])).1
private def weak' : List Nat := (inversePairs.getD 5 ([], [])).2
example : weak ≠ weak' ∧ weak.length = 8 := by decide
example := C76_standard weak weak' (by decide) k2 k2_block
example := C76_library weak weak' (by decide) text16 rfl (by decide)
example := C77_sixteen k1 rfl 1 iv1 iv1_block 2 (.inr rfl)
example := C78_ecb k1 rfl text16 k2 rfl rfl (by decide) (by decide)
example := C78_cbc_encrypt k1 rfl iv1 iv1_block text16 k2 rfl (by decide) rfl (by decide) (by decide)
example := C78_cbc_error k1 rfl iv1 iv1_block text16 k2 k1 k2 iv1 rfl (by decide) rfl (by decide) k1_block k2_block iv1_block

/-! C79, C80 -/
example (o : PDes) (h : PDes.new k1 1 iv1 none 2 = .ok o) := C79_des k1 1 iv1 none 2 o h [.setKey k2, .setMode 0, .setIV k1, .setPadding (some 3)]
example := C79_pad_and_pkcs5 k1 iv1 1 rfl iv1_block 255 text5
example := C80_encrypt ⟨⟨1, iv1, none, 2⟩, createSubKeys k1⟩ text5 none none (.inr rfl)
example := C80_asymmetry k1 iv1 1 (.inr rfl) rfl iv1_block 32 text5 (by decide)

/-- A triple DES object in ECB mode without IV is switched to CBC. -/
example : ∃ o0 o, PTriple.new key16 0 [] none 1 = .ok o0 ∧ PTriple.Run o0 [.setMode 1] o := by
  obtain ⟨t, ht, _⟩ := (ofBase_eq ⟨0, [], none, 1⟩ key16 (.inl rfl) (.inl rfl)).1 (by simp)
  have ht : Triple.new key16 0 [] none 1 = .ok t := by rw [← ht]; rfl
  exact ⟨⟨key16, t⟩, _, by unfold PTriple.new; rw [ht], .snoc (cs := []) .nil .setMode⟩

/-- A triple DES object made in CBC mode without IV is given another key: `C79_stale_iv` and `C79_triple_getters` apply to it. -/
example : ∃ o0 o fresh, PTriple.new key16 1 [] none 1 = .ok o0 ∧ PTriple.Run o0 [.setKey key24] o ∧ PTriple.new key24 1 [] none 1 = .ok fresh := by
  obtain ⟨t, ht, hl⟩ := (ofBase_eq ⟨1, [], none, 1⟩ key16 (.inl rfl) (.inl rfl)).1 (by simp)
  obtain ⟨tf, hf, _⟩ := (ofBase_eq ⟨1, [], none, 1⟩ key24 (.inr rfl) (.inl rfl)).1 (by simp)
  have ht' : Triple.new key16 1 [] none 1 = .ok t := by rw [← ht]; rfl
  have hf' : Triple.new key24 1 [] none 1 = .ok tf := by rw [← hf]; rfl
  have hb : t.base = ⟨1, k1, none, 1⟩ := hl.base
  obtain ⟨t1, h1, _⟩ := (ofBase_eq t.base key24 (.inr rfl) (by rw [hb]; exact .inr rfl)).1 (by rw [hb]; simp)
  exact ⟨⟨key16, t⟩, ⟨key24, t1⟩, ⟨key24, tf⟩, by unfold PTriple.new; rw [ht'],
    .snoc (cs := []) .nil (.setKey (by unfold PTriple.setKey; rw [if_neg (by decide), h1])), by unfold PTriple.new; rw [hf']⟩

end Verif.Props
