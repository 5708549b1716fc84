import Verif.Lemmas.DESModes
import Verif.Props.Cipher
/-! C57-C60, C73: single DES. -/
namespace Verif.Props
open Verif.Py Verif.Model Verif.Model.PyDes Verif.Spec.DES

theorem enc_eq (key : List Nat) : blockF (createSubKeys key) true = encipher key := by
  funext b; exact (encipher_eq key b).symm
theorem dec_eq (key : List Nat) : blockF (createSubKeys key) false = decipher key := by
  funext b; exact (decipher_eq key b).symm

theorem iv_block_ne (iv : List Nat) (h : IsBlock iv) : iv ≠ [] := by
  intro h'; have := h.1; rw [h'] at this; simp at this

/-! ### Constructor -/

theorem C59_constructor (key : List Nat) (mode : Nat) (iv : List Nat) (pad : Option Nat) (padmode : Nat) :
    (key.length = 8 ∧ (iv = [] ∨ iv.length = 8) ∧ ¬ (pad.isSome = true ∧ padmode = 2) →
      Des.new key mode iv pad padmode = .ok ⟨⟨mode, iv, pad, padmode⟩, createSubKeys key⟩) ∧
    (¬ (key.length = 8 ∧ (iv = [] ∨ iv.length = 8) ∧ ¬ (pad.isSome = true ∧ padmode = 2)) → Des.new key mode iv pad padmode = .error .valueError) := by
  unfold Des.new Base.new PAD_PKCS5
  by_cases hk : key.length = 8
  · rw [if_neg (show ¬ key.length ≠ 8 from fun h => h hk)]
    by_cases hp : pad.isSome = true ∧ padmode = 2
    · rw [if_pos hp]
      exact ⟨fun h => absurd hp h.2.2, fun _ => rfl⟩
    · rw [if_neg hp]
      by_cases hi : iv ≠ [] ∧ iv.length ≠ 8
      · rw [if_pos hi]
        refine ⟨fun h => ?_, fun _ => rfl⟩
        rcases h.2.1 with h | h
        · exact absurd h hi.1
        · exact absurd h hi.2
      · rw [if_neg hi]
        refine ⟨fun _ => rfl, fun h => ?_⟩
        exfalso
        apply h
        refine ⟨hk, ?_, hp⟩
        by_cases he : iv = []
        · exact .inl he
        · right
          by_cases hl : iv.length = 8
          · exact hl
          · exact absurd ⟨he, hl⟩ hi
  · rw [if_pos hk]
    exact ⟨fun h => absurd h.1 hk, fun _ => rfl⟩

/-! ### No padding -/

theorem padData_none (b : Base) (hp : b.padmode = 1) (m : List Nat) (hm : m.length % 8 = 0) : b.padData m none none = .ok m := by
  unfold Base.padData
  rw [if_neg (by simp)]
  simp only [Option.getD_none, hp]
  rw [if_pos (by rfl), if_pos hm]

theorem padData_none_err (b : Base) (hp : b.padmode = 1) (hn : b.padding = none) (m : List Nat) (hm : m.length % 8 ≠ 0) : b.padData m none none = .error .valueError := by
  unfold Base.padData
  rw [if_neg (by simp)]
  simp only [Option.getD_none, hp]
  rw [if_pos (by rfl), if_neg hm]
  simp [hn]

theorem unpadData_none (b : Base) (hp : b.padmode = 1) (hn : b.padding = none) (m : List Nat) : b.unpadData m none none = .ok m := by
  unfold Base.unpadData
  cases m.getLast? with
  | none => rfl
  | some v =>
    simp only
    rw [if_neg (by simp)]
    simp only [Option.getD_none, hp]
    rw [if_pos (by rfl)]
    simp [hn]

theorem encrypt_none (d : Des) (hp : d.base.padmode = 1) (m : List Nat) (hm : m.length % 8 = 0) : d.encrypt m none none = d.crypt m true := by
  unfold Des.encrypt
  rw [padData_none _ hp m hm]

theorem decrypt_none (d : Des) (hp : d.base.padmode = 1) (hn : d.base.padding = none) (m : List Nat) : d.decrypt m none none = d.crypt m false := by
  unfold Des.decrypt
  cases d.crypt m false with
  | error e => rfl
  | ok r => exact unpadData_none _ hp hn r

theorem flatten_mod8 (bs : List (List Nat)) (hb : ∀ b ∈ bs, IsBlock b) : bs.flatten.length % 8 = 0 := by
  rw [flatten_length8 bs (fun b h => (hb b h).1)]; omega

/-- C59. ECB without padding computes, block by block, DES of FIPS 46-3, for messages of any number of blocks. -/
theorem C59_ecb (key iv : List Nat) (hk : key.length = 8) (hiv : iv = [] ∨ iv.length = 8) (bs : List (List Nat)) (hb : ∀ b ∈ bs, IsBlock b) :
    ∃ d, Des.new key 0 iv none 1 = .ok d ∧ d.encrypt bs.flatten none none = .ok (ecb (encipher key) bs).flatten ∧
      d.decrypt bs.flatten none none = .ok (ecb (decipher key) bs).flatten := by
  refine ⟨_, (C59_constructor key 0 iv none 1).1 ⟨hk, hiv, by simp⟩, ?_, ?_⟩
  · rw [encrypt_none _ rfl _ (flatten_mod8 bs hb), crypt_ecb _ (by show (0 : Nat) ≠ 1; decide) true bs (fun b h => (hb b h).1), ← enc_eq]
  · rw [decrypt_none _ rfl rfl, crypt_ecb _ (by show (0 : Nat) ≠ 1; decide) false bs (fun b h => (hb b h).1), ← dec_eq]

/-- C59. CBC without padding computes the CBC mode of DES. -/
theorem C59_cbc (key iv : List Nat) (hk : key.length = 8) (hiv : IsBlock iv) (bs : List (List Nat)) (hb : ∀ b ∈ bs, IsBlock b) :
    ∃ d, Des.new key 1 iv none 1 = .ok d ∧ d.encrypt bs.flatten none none = .ok (cbcEncrypt (encipher key) iv bs).flatten ∧
      d.decrypt bs.flatten none none = .ok (cbcDecrypt (decipher key) iv bs).flatten := by
  refine ⟨_, (C59_constructor key 1 iv none 1).1 ⟨hk, .inr hiv.1, by simp⟩, ?_, ?_⟩
  · rw [encrypt_none _ rfl _ (flatten_mod8 bs hb), crypt_cbc_enc _ (by rfl) (iv_block_ne iv hiv) bs (fun b h => (hb b h).1), ← enc_eq]
  · rw [decrypt_none _ rfl rfl, crypt_cbc_dec _ (by rfl) hiv bs hb, ← dec_eq]

theorem encipher_block (key b : List Nat) : IsBlock (encipher key b) := by rw [← enc_eq]; exact blockF_block _ _ _
theorem decipher_block (key b : List Nat) : IsBlock (decipher key b) := by rw [← dec_eq]; exact blockF_block _ _ _

/-- C57. DES of FIPS 46-3: deciphering inverts enciphering and conversely, for every key and block. -/
theorem C57_standard (key block : List Nat) (hb : IsBlock block) :
    decipher key (encipher key block) = block ∧ encipher key (decipher key block) = block := by
  rw [← enc_eq, ← dec_eq]
  exact ⟨blockF_inverse _ true block hb, blockF_inverse _ false block hb⟩

/-- C58. The library computes FIPS 46-3 DES on every block, under every key. -/
theorem C58_block (key block : List Nat) (hk : key.length = 8) (hb : IsBlock block) :
    ∃ d, Des.new key 0 [] none 1 = .ok d ∧ d.encrypt block none none = .ok (encipher key block) ∧ d.decrypt block none none = .ok (decipher key block) := by
  obtain ⟨d, h1, h2, h3⟩ := C59_ecb key [] hk (.inl rfl) [block] (by intro b h; simp at h; subst h; exact hb)
  have e : [block].flatten = block := by simp
  rw [e] at h2 h3
  exact ⟨d, h1, by rw [h2]; simp [ecb], by rw [h3]; simp [ecb]⟩

/-- C58. The library's subkeys are the key schedule of FIPS 46-3. -/
theorem C58_key_schedule (key : List Nat) : (createSubKeys key).length = 16 ∧ ∀ n, 1 ≤ n → n ≤ 16 → (createSubKeys key)[n - 1]? = some (KS (toBits key) n) := by
  rw [createSubKeys_eq]
  refine ⟨by simp, ?_⟩
  intro n h1 h2
  have : n - 1 < 16 := by omega
  simp [this]
  congr 1
  omega

/-- C57. For every key and every block: the library's decryption inverts its encryption and conversely. -/
theorem C57_library (key block : List Nat) (hk : key.length = 8) (hb : IsBlock block) :
    ∃ d, Des.new key 0 [] none 1 = .ok d ∧
      (∃ c, d.encrypt block none none = .ok c ∧ IsBlock c ∧ d.decrypt c none none = .ok block) ∧
      (∃ c, d.decrypt block none none = .ok c ∧ IsBlock c ∧ d.encrypt c none none = .ok block) := by
  obtain ⟨d, h1, h2, h3⟩ := C58_block key block hk hb
  obtain ⟨d', g1, _, g3⟩ := C58_block key (encipher key block) hk (encipher_block _ _)
  obtain ⟨d'', f1, f2, _⟩ := C58_block key (decipher key block) hk (decipher_block _ _)
  rw [h1] at g1 f1
  injection g1 with g1
  injection f1 with f1
  subst g1
  subst f1
  refine ⟨d, h1, ⟨_, h2, encipher_block _ _, ?_⟩, ⟨_, h3, decipher_block _ _, ?_⟩⟩
  · rw [g3, (C57_standard key block hb).1]
  · rw [f2, (C57_standard key block hb).2]

/-- C59. For every key, IV, mode and message of whole blocks: the ciphertext has the length of the message and decrypts to it. -/
theorem C59_roundtrip (key iv : List Nat) (mode : Nat) (hmode : mode = 0 ∨ mode = 1) (hk : key.length = 8) (hiv : IsBlock iv)
    (m : List Nat) (hm : m.length % 8 = 0) (hx : ∀ x ∈ m, x < 256) :
    ∃ d c, Des.new key mode iv none 1 = .ok d ∧ d.encrypt m none none = .ok c ∧ c.length = m.length ∧ (∀ x ∈ c, x < 256) ∧ d.decrypt c none none = .ok m := by
  obtain ⟨bs, rfl, hb⟩ := exists_blocks m hm hx
  have hE : ∀ b, IsBlock b → IsBlock (encipher key b) := fun b _ => encipher_block key b
  rcases hmode with rfl | rfl
  · obtain ⟨d, h1, h2, _⟩ := C59_ecb key iv hk (.inr hiv.1) bs hb
    obtain ⟨g1, g2⟩ := ecb_blocks _ hE bs hb
    obtain ⟨d', k1, _, k3⟩ := C59_ecb key iv hk (.inr hiv.1) (ecb (encipher key) bs) g1
    rw [h1] at k1; injection k1 with k1; subst k1
    refine ⟨d, _, h1, h2, ?_, flatten_bytes _ g1, ?_⟩
    · rw [flatten_length8 _ (fun b h => (g1 b h).1), flatten_length8 _ (fun b h => (hb b h).1), g2]
    · rw [k3, ecb_inverse _ _ (fun b hb => (C57_standard key b hb).1) bs hb]
  · obtain ⟨d, h1, h2, _⟩ := C59_cbc key iv hk hiv bs hb
    obtain ⟨g1, g2⟩ := cbcEncrypt_blocks _ hE iv hiv bs hb
    obtain ⟨d', k1, _, k3⟩ := C59_cbc key iv hk hiv (cbcEncrypt (encipher key) iv bs) g1
    rw [h1] at k1; injection k1 with k1; subst k1
    refine ⟨d, _, h1, h2, ?_, flatten_bytes _ g1, ?_⟩
    · rw [flatten_length8 _ (fun b h => (g1 b h).1), flatten_length8 _ (fun b h => (hb b h).1), g2]
    · rw [k3, cbc_inverse _ _ (fun b hb => (C57_standard key b hb).1) hE iv hiv bs hb]

/-- C59. Without padding, data of any other length is refused with ValueError, for encryption and for decryption. -/
theorem C59_other_lengths (key iv : List Nat) (mode : Nat) (d : Des) (hd : Des.new key mode iv none 1 = .ok d) (m : List Nat) (hm : m.length % 8 ≠ 0) :
    d.encrypt m none none = .error .valueError ∧ d.decrypt m none none = .error .valueError := by
  have hb : d.base.padmode = 1 ∧ d.base.padding = none := by
    by_cases h : key.length = 8 ∧ (iv = [] ∨ iv.length = 8) ∧ ¬ ((none : Option Nat).isSome = true ∧ (1 : Nat) = 2)
    · rw [(C59_constructor key mode iv none 1).1 h] at hd
      injection hd with hd; subst hd; exact ⟨rfl, rfl⟩
    · rw [(C59_constructor key mode iv none 1).2 h] at hd; cases hd
  constructor
  · unfold Des.encrypt
    rw [padData_none_err _ hb.1 hb.2 m hm]
  · unfold Des.decrypt Des.crypt
    rw [if_neg (by rintro rfl; simp at hm)]
    simp only
    rw [if_pos hm, if_pos (by simp)]

/-- C59. CBC without an IV: the object can be made, and refuses every non-empty message with ValueError. -/
theorem C59_cbc_without_iv (key : List Nat) (hk : key.length = 8) :
    ∃ d, Des.new key 1 [] none 1 = .ok d ∧ ∀ m : List Nat, m ≠ [] →
      d.encrypt m none none = .error .valueError ∧ d.decrypt m none none = .error .valueError := by
  have hn := (C59_constructor key 1 [] none 1).1 ⟨hk, .inl rfl, by simp⟩
  refine ⟨_, hn, ?_⟩
  intro m hm
  by_cases h8 : m.length % 8 ≠ 0
  · exact C59_other_lengths key [] 1 _ hn m h8
  · have h8' : m.length % 8 = 0 := by omega
    constructor
    · rw [encrypt_none _ rfl m h8']
      unfold Des.crypt
      rw [if_neg hm]
      simp only
      rw [if_neg h8]
      simp only
      rw [if_pos ⟨rfl, trivial⟩]
    · rw [decrypt_none _ rfl rfl]
      unfold Des.crypt
      rw [if_neg hm]
      simp only
      rw [if_neg h8]
      simp only
      rw [if_pos ⟨rfl, trivial⟩]

example : encipher [0x13, 0x34, 0x57, 0x79, 0x9B, 0xBC, 0xDF, 0xF1] [0x01, 0x23, 0x45, 0x67, 0x89, 0xAB, 0xCD, 0xEF] =
    [0x85, 0xE8, 0x13, 0x54, 0x0F, 0x0A, 0xB4, 0x05] := by decide +kernel

/-! ### C60 -/

theorem crypt_padmode (mode : Nat) (iv : List Nat) (Kn : List PyDes.Bits) (pm pm' : Nat) (m : List Nat) (e : Bool) :
    (Des.mk ⟨mode, iv, none, pm⟩ Kn).crypt m e = (Des.mk ⟨mode, iv, none, pm'⟩ Kn).crypt m e := rfl

/-- C60. Encrypting with PKCS5 padding is encrypting, without padding, the message followed by k bytes of value k, with k from
1 to 8 making the length a multiple of 8. -/
theorem C60_padding (key iv : List Nat) (mode : Nat) (hk : key.length = 8) (hiv : IsBlock iv) (m : List Nat) :
    ∃ d d' k, Des.new key mode iv none 2 = .ok d ∧ Des.new key mode iv none 1 = .ok d' ∧ 1 ≤ k ∧ k ≤ 8 ∧ (m.length + k) % 8 = 0 ∧
      d.encrypt m none none = d'.encrypt (m ++ List.replicate k k) none none := by
  refine ⟨_, _, 8 - m.length % 8, (C59_constructor key mode iv none 2).1 ⟨hk, .inr hiv.1, by simp⟩,
    (C59_constructor key mode iv none 1).1 ⟨hk, .inr hiv.1, by simp⟩, by omega, by omega, by omega, ?_⟩
  have hl : (m ++ List.replicate (8 - m.length % 8) (8 - m.length % 8)).length % 8 = 0 := by
    simp only [List.length_append, List.length_replicate]; omega
  rw [encrypt_none _ rfl _ hl]
  unfold Des.encrypt Base.padData
  rw [if_neg (by simp)]
  simp only [Option.getD_none]
  rw [if_neg (by simp [PAD_NORMAL]), if_pos (by rfl)]
  simp only
  exact crypt_padmode mode iv _ 2 1 _ true

/-- C60. For every key, IV, mode and message, of any length: PKCS5 encryption gives a ciphertext of (length/8 + 1) blocks and
decryption gives the message back. -/
theorem C60_roundtrip (key iv : List Nat) (mode : Nat) (hmode : mode = 0 ∨ mode = 1) (hk : key.length = 8) (hiv : IsBlock iv)
    (m : List Nat) (hx : ∀ x ∈ m, x < 256) :
    ∃ d c, Des.new key mode iv none 2 = .ok d ∧ d.encrypt m none none = .ok c ∧ c.length = (m.length / 8 + 1) * 8 ∧ (∀ x ∈ c, x < 256) ∧
      d.decrypt c none none = .ok m := by
  have hn := (C59_constructor key mode iv none 2).1 ⟨hk, .inr hiv.1, by simp⟩
  have hn' := (C59_constructor key mode iv none 1).1 ⟨hk, .inr hiv.1, by simp⟩
  obtain ⟨m', p1, p2, p3, p4⟩ := unpad_pad_pkcs5 ⟨mode, iv, none, 2⟩ ⟨mode, iv, none, 2⟩ rfl rfl m
  have hm8 : m'.length % 8 = 0 := by omega
  have hm' : ∀ x ∈ m', x < 256 := by
    intro x hx'
    rcases p3 x hx' with h | h
    · exact hx x h
    · omega
  obtain ⟨d', c, g1, g2, g3, g4, g5⟩ := C59_roundtrip key iv mode hmode hk hiv m' hm8 hm'
  rw [hn'] at g1; injection g1 with g1; subst g1
  refine ⟨_, c, hn, ?_, by omega, g4, ?_⟩
  · unfold Des.encrypt
    rw [p1]
    simp only
    rw [crypt_padmode mode iv _ 2 1, ← encrypt_none _ rfl m' hm8]
    exact g2
  · rw [decrypt_none _ rfl rfl] at g5
    unfold Des.decrypt
    rw [crypt_padmode mode iv _ 2 1, g5]
    exact p4

/-- C60. What PKCS5 decryption does to a decrypted text that is not well padded: it removes as many bytes as the last byte says
(all of them if it is more than there are), without looking at the others; a final byte 0 deletes the whole text. -/
theorem C60_unvalidated (key iv : List Nat) (mode : Nat) (hk : key.length = 8) (hiv : IsBlock iv) (c t : List Nat) (v : Nat) :
    ∃ d d', Des.new key mode iv none 2 = .ok d ∧ Des.new key mode iv none 1 = .ok d' ∧
      (d'.decrypt c none none = .ok (t ++ [v]) →
        d.decrypt c none none = .ok (if v = 0 then [] else (t ++ [v]).take (t.length + 1 - v))) := by
  refine ⟨_, _, (C59_constructor key mode iv none 2).1 ⟨hk, .inr hiv.1, by simp⟩, (C59_constructor key mode iv none 1).1 ⟨hk, .inr hiv.1, by simp⟩, ?_⟩
  rw [decrypt_none _ rfl rfl]
  intro h
  unfold Des.decrypt
  rw [crypt_padmode mode iv _ 2 1, h]
  simp only
  unfold Base.unpadData
  rw [List.getLast?_concat]
  simp only
  rw [if_neg (by simp), if_neg (by simp [PAD_NORMAL]), if_pos (by simp [PAD_PKCS5])]
  by_cases hv : v = 0
  · subst hv
    rw [if_pos rfl]
    show Except.ok (sliceTo _ (-0)) = _
    rw [Int.neg_zero, sliceTo_zero]
  · rw [if_neg hv, sliceTo_neg _ _ (by omega)]
    simp

/-- C60, such texts occur: some ciphertext is decrypted, with PKCS5, to the empty message although its plaintext is eight
zero bytes. -/
theorem C60_zero_deletes (key iv : List Nat) (hk : key.length = 8) (hiv : IsBlock iv) :
    ∃ d c, Des.new key 0 iv none 2 = .ok d ∧ c.length = 8 ∧ d.decrypt c none none = .ok [] ∧ decipher key c = [0, 0, 0, 0, 0, 0, 0, 0] := by
  have hz : IsBlock [0, 0, 0, 0, 0, 0, 0, 0] := ⟨rfl, by decide⟩
  obtain ⟨d, d', h1, h2, h3⟩ := C60_unvalidated key iv 0 hk hiv (encipher key [0, 0, 0, 0, 0, 0, 0, 0]) [0, 0, 0, 0, 0, 0, 0] 0
  have hc : ∀ b ∈ [encipher key [0, 0, 0, 0, 0, 0, 0, 0]], IsBlock b := by intro b h; simp at h; subst h; exact encipher_block _ _
  obtain ⟨d'', g1, _, g3⟩ := C59_ecb key iv hk (.inr hiv.1) _ hc
  rw [h2] at g1; injection g1 with g1; subst g1
  have e1 : [encipher key [0, 0, 0, 0, 0, 0, 0, 0]].flatten = encipher key [0, 0, 0, 0, 0, 0, 0, 0] := by simp
  have e2 : (ecb (decipher key) [encipher key [0, 0, 0, 0, 0, 0, 0, 0]]).flatten = [0, 0, 0, 0, 0, 0, 0, 0] := by
    simp only [ecb, List.map_cons, List.map_nil, List.flatten_cons, List.flatten_nil, List.append_nil]
    exact (C57_standard key _ hz).1
  rw [e1, e2] at g3
  exact ⟨d, _, h1, (encipher_block _ _).1, h3 g3, (C57_standard key _ hz).1⟩


/-! ### C73: padding with a character -/

theorem crypt_roundtrip (d : Des) (hmode : d.base.mode = 0 ∨ d.base.mode = 1) (hiv : IsBlock d.base.iv)
    (m : List Nat) (hm : m.length % 8 = 0) (hx : ∀ x ∈ m, x < 256) :
    ∃ c, d.crypt m true = .ok c ∧ c.length = m.length ∧ (∀ x ∈ c, x < 256) ∧ d.crypt c false = .ok m := by
  obtain ⟨bs, rfl, hb⟩ := exists_blocks m hm hx
  have hE : ∀ b, IsBlock b → IsBlock (blockF d.Kn true b) := fun b _ => blockF_block _ _ b
  have hl := flatten_length8 bs (fun b h => (hb b h).1)
  have hi : ∀ b, IsBlock b → blockF d.Kn false (blockF d.Kn true b) = b := fun b hb => blockF_inverse d.Kn true b hb
  rcases hmode with h | h
  · have hne : d.base.mode ≠ CBC := by rw [h]; decide
    obtain ⟨g1, g2⟩ := ecb_blocks _ hE bs hb
    refine ⟨_, crypt_ecb d hne true bs (fun b h => (hb b h).1), ?_, flatten_bytes _ g1, ?_⟩
    · rw [flatten_length8 _ (fun b h => (g1 b h).1), g2, hl]
    · rw [crypt_ecb d hne false _ (fun b h => (g1 b h).1), ecb_inverse _ _ hi bs hb]
  · obtain ⟨g1, g2⟩ := cbcEncrypt_blocks _ hE d.base.iv hiv bs hb
    refine ⟨_, crypt_cbc_enc d h (iv_block_ne _ hiv) bs (fun b h => (hb b h).1), ?_, flatten_bytes _ g1, ?_⟩
    · rw [flatten_length8 _ (fun b h => (g1 b h).1), g2, hl]
    · rw [crypt_cbc_dec d h hiv _ g1, cbc_inverse _ _ hi hE _ hiv bs hb]

theorem rstrip_spec (l : List Nat) (c : Nat) : ∃ l' z, rstrip l c = l' ∧ l = l' ++ List.replicate z c ∧ l'.getLast? ≠ some c := by
  have h : ∀ r : List Nat, ∃ r' z, r.dropWhile (· == c) = r' ∧ r = List.replicate z c ++ r' ∧ r'.head? ≠ some c := by
    intro r
    induction r with
    | nil => exact ⟨[], 0, rfl, rfl, by simp⟩
    | cons x xs ih =>
      by_cases hx : x = c
      · obtain ⟨r', z, h1, h2, h3⟩ := ih
        refine ⟨r', z + 1, by simp [hx, h1], ?_, h3⟩
        rw [List.replicate_succ, List.cons_append, ← h2, hx]
      · refine ⟨x :: xs, 0, by simp [hx], rfl, by simp [hx]⟩
  obtain ⟨r', z, h1, h2, h3⟩ := h l.reverse
  refine ⟨r'.reverse, z, by unfold rstrip; rw [h1], ?_, by simpa using h3⟩
  have := congrArg List.reverse h2
  simpa using this

/-- C73. Padding with a character `c`: decryption returns the message without the `c` bytes at the end of its last block (the
last block holds `(m.length - 1) % 8 + 1` bytes of the message; bytes before it are never lost), so the round trip is exact for,
and only for, the empty message and messages that do not end with `c` - even when no padding was needed. -/
theorem C73_pad_character (key iv : List Nat) (mode c : Nat) (hmode : mode = 0 ∨ mode = 1) (hk : key.length = 8) (hiv : IsBlock iv) (hc : c < 256)
    (m : List Nat) (hx : ∀ x ∈ m, x < 256) :
    ∃ d ct m' z, Des.new key mode iv (some c) 1 = .ok d ∧ d.encrypt m none none = .ok ct ∧ ct.length = (m.length + 7) / 8 * 8 ∧
      d.decrypt ct none none = .ok m' ∧ m = m' ++ List.replicate z c ∧
      z ≤ (m.length - 1) % 8 + 1 ∧ (z < (m.length - 1) % 8 + 1 → m'.getLast? ≠ some c) ∧
      (m' = m ↔ m = [] ∨ m.getLast? ≠ some c) := by
  have hn := (C59_constructor key mode iv (some c) 1).1 ⟨hk, .inr hiv.1, by simp⟩
  obtain ⟨k, hk1, hk2⟩ : ∃ k, (m.length + k) % 8 = 0 ∧ k ≤ 7 := ⟨(8 - m.length % 8) % 8, by omega, by omega⟩
  have hpad : (Base.mk mode iv (some c) 1).padData m none none = .ok (m ++ List.replicate k c) := by
    unfold Base.padData
    rw [if_neg (by simp)]
    simp only [Option.getD_none]
    rw [if_pos (by rfl)]
    by_cases h8 : m.length % 8 = 0
    · rw [if_pos h8, show k = 0 by omega]; simp
    · rw [if_neg h8]
      simp only [Option.orElse_eq_orElse, Option.orElse_none]
      rw [show k = 8 - m.length % 8 by omega]
  generalize hP : m ++ List.replicate k c = P at hpad
  have hPl : P.length = m.length + k := by rw [← hP]; simp
  have hPx : ∀ x ∈ P, x < 256 := by
    rw [← hP]
    intro x h
    rcases List.mem_append.1 h with h | h
    · exact hx x h
    · rw [List.eq_of_mem_replicate h]; exact hc
  obtain ⟨ct, g1, g2, g3, g4⟩ := crypt_roundtrip (Des.mk ⟨mode, iv, some c, 1⟩ (createSubKeys key)) hmode hiv P (by omega) hPx
  have henc : (Des.mk ⟨mode, iv, some c, 1⟩ (createSubKeys key)).encrypt m none none = .ok ct := by
    unfold Des.encrypt
    rw [hpad]
    exact g1
  have hdec : (Des.mk ⟨mode, iv, some c, 1⟩ (createSubKeys key)).decrypt ct none none = (Base.mk mode iv (some c) 1).unpadData P none none := by
    unfold Des.decrypt
    rw [g4]
  have hctl : ct.length = (m.length + 7) / 8 * 8 := by omega
  by_cases hm : m = []
  · subst hm
    have hk0 : k = 0 := by simp at hk1; omega
    subst hk0
    have : P = [] := by rw [← hP]; rfl
    subst this
    exact ⟨_, ct, [], 0, hn, henc, hctl, hdec, rfl, by omega, by simp, by simp⟩
  · have hml : 0 < m.length := List.length_pos_iff.2 hm
    have hP8 : 8 ≤ P.length := by omega
    obtain ⟨l', z, h1, h2, h3⟩ := rstrip_spec (P.drop (P.length - 8)) c
    have hz : l'.length + z = 8 := by
      have := congrArg List.length h2
      simp only [List.length_drop, List.length_append, List.length_replicate] at this
      omega
    have hun : (Base.mk mode iv (some c) 1).unpadData P none none = .ok (P.take (P.length - 8) ++ l') := by
      unfold Base.unpadData
      cases hg : P.getLast? with
      | none => rw [List.getLast?_eq_none_iff] at hg; rw [hg] at hP8; simp at hP8
      | some v =>
        simp only
        rw [if_neg (by simp)]
        simp only [Option.getD_none]
        rw [if_pos (by rfl)]
        simp only [Option.orElse_eq_orElse, Option.orElse_none]
        rw [show (-8 : Int) = -((8 : Nat) : Int) from rfl, sliceTo_neg P 8 (by omega), sliceFrom_neg P 8 (by omega), h1]
    have hPr : P = (P.take (P.length - 8) ++ l') ++ List.replicate z c := by
      rw [List.append_assoc, ← h2, List.take_append_drop]
    generalize hr : P.take (P.length - 8) ++ l' = r at hun hPr
    have hrl : r.length + z = P.length := by
      have := congrArg List.length hPr
      simp only [List.length_append, List.length_replicate] at this
      omega
    have hlast : l' ≠ [] → r.getLast? ≠ some c := by
      intro hne
      rw [← hr, List.getLast?_append]
      cases hg : l'.getLast? with
      | none => exact absurd (List.getLast?_eq_none_iff.1 hg) hne
      | some v => rw [hg] at h3; simpa using h3
    have hle : r.length ≤ m.length := by
      rcases Nat.lt_or_ge m.length r.length with hlt | hge
      · exfalso
        have hne : l' ≠ [] := by
          intro h; rw [h] at hz; simp at hz
          omega
        apply hlast hne
        rw [List.getLast?_eq_getElem?]
        have e1 : P[r.length - 1]? = r[r.length - 1]? := by
          rw [hPr, List.getElem?_append_left (by omega)]
        have e2 : P[r.length - 1]? = some c := by
          rw [← hP, List.getElem?_append_right (by omega), List.getElem?_replicate]
          rw [if_pos (by omega)]
        rw [← e1, e2]
      · exact hge
    have hmr : m = r ++ List.replicate (m.length - r.length) c := by
      have e1 : P.take m.length = m := by rw [← hP, List.take_left]
      rw [hPr, List.take_append, List.take_of_length_le hle, List.take_replicate] at e1
      rw [← e1]
      congr 2
      simp only [List.length_append, List.length_replicate]
      omega
    refine ⟨_, ct, r, m.length - r.length, hn, henc, hctl, by rw [hdec, hun], hmr, by omega, ?_, ?_⟩
    · intro hlt
      apply hlast
      intro h
      rw [h] at hz
      simp at hz
      omega
    constructor
    · intro he
      right
      rw [← he]
      apply hlast
      intro h
      rw [h] at hz
      simp at hz
      have := congrArg List.length he
      omega
    · rintro (h | h)
      · exact absurd h hm
      · have : m.length - r.length = 0 := by
          rcases Nat.eq_zero_or_pos (m.length - r.length) with h0 | h0
          · exact h0
          · exfalso
            apply h
            rw [hmr, List.getLast?_append]
            obtain ⟨w, hw⟩ : ∃ w, m.length - r.length = w + 1 := ⟨m.length - r.length - 1, by omega⟩
            rw [hw, List.replicate_succ', List.getLast?_concat]
            rfl
        rw [this] at hmr
        simpa using hmr.symm

/-- C73, for instance: eight bytes ending in the pad character come back shorter. -/
theorem C73_lost_byte (key iv : List Nat) (hk : key.length = 8) (hiv : IsBlock iv) :
    ∃ d ct m', Des.new key 0 iv (some 32) 1 = .ok d ∧ d.encrypt [1, 2, 3, 4, 5, 6, 7, 32] none none = .ok ct ∧ d.decrypt ct none none = .ok m' ∧
      m' ≠ [1, 2, 3, 4, 5, 6, 7, 32] := by
  obtain ⟨d, ct, m', z, h1, h2, _, h4, _, _, _, h7⟩ := C73_pad_character key iv 0 32 (.inl rfl) hk hiv (by omega) [1, 2, 3, 4, 5, 6, 7, 32] (by decide)
  refine ⟨d, ct, m', h1, h2, h4, ?_⟩
  rw [Ne, h7]
  simp

end Verif.Props
