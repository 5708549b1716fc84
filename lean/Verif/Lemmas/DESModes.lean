import Verif.Lemmas.DES
/-! Lemmas about the modes of operation and padding of the DES model. -/
namespace Verif.Model.PyDes
open Verif.Py Verif.Spec.DES

/-- What the model does with one block. -/
def blockF (Kn : List PyDes.Bits) (enc : Bool) (b : List Nat) : List Nat := bitsToString (desCrypt Kn enc (stringToBits b))

theorem blockF_block (Kn : List PyDes.Bits) (enc : Bool) (b : List Nat) : IsBlock (blockF Kn enc b) := by
  obtain ⟨_, h2, h3⟩ := stringToBits_bitsToString 8 (desCrypt Kn enc (stringToBits b)) (by rw [desCrypt_length])
  exact ⟨h2, h3⟩

theorem blockF_bits (Kn : List PyDes.Bits) (enc : Bool) (b : List Nat) : stringToBits (blockF Kn enc b) = desCrypt Kn enc (stringToBits b) :=
  (stringToBits_bitsToString 8 _ (by rw [desCrypt_length])).1

theorem blockF_inverse (Kn : List PyDes.Bits) (enc : Bool) (b : List Nat) (h : IsBlock b) : blockF Kn (!enc) (blockF Kn enc b) = b := by
  unfold blockF
  rw [show stringToBits (bitsToString (desCrypt Kn enc (stringToBits b))) = desCrypt Kn enc (stringToBits b) from blockF_bits Kn enc b]
  rw [desCrypt_inverse Kn enc _ (by rw [stringToBits_length, h.1]), bitsToString_stringToBits b h.2]

theorem xorBytes_length (a b : List Nat) : (xorBytes a b).length = min a.length b.length := by simp [xorBytes]

theorem xorBytes_block (a b : List Nat) (ha : IsBlock a) (hb : IsBlock b) : IsBlock (xorBytes a b) := by
  refine ⟨by rw [xorBytes_length, ha.1, hb.1]; rfl, ?_⟩
  intro x hx
  obtain ⟨i, hi, rfl⟩ := List.getElem_of_mem hx
  simp only [xorBytes, List.length_zipWith] at hi
  simp only [xorBytes, List.getElem_zipWith]
  have h1 := ha.2 a[i] (List.getElem_mem (by omega))
  have h2 := hb.2 b[i] (List.getElem_mem (by omega))
  exact Nat.xor_lt_two_pow (n := 8) h1 h2

theorem xorBytes_cancel (a b : List Nat) (h : a.length = b.length) : xorBytes (xorBytes a b) b = a := by
  apply List.ext_getElem
  · rw [xorBytes_length, xorBytes_length]; omega
  · intro i h1 h2
    simp only [xorBytes, List.getElem_zipWith]
    rw [Nat.xor_assoc, Nat.xor_self, Nat.xor_zero]

/-! ### Blocks of a message -/

theorem blocksF_flatten (bs : List (List Nat)) (h : ∀ b ∈ bs, b.length = 8) (n : Nat) (hn : bs.length ≤ n) : blocksF n bs.flatten = bs := by
  induction bs generalizing n with
  | nil => cases n <;> rfl
  | cons b bs ih =>
    have hb := h b (by simp)
    cases n with
    | zero => simp at hn
    | succ n =>
      rw [List.flatten_cons, blocksF]
      rw [if_neg (by intro hc; have := congrArg List.length hc; simp only [List.length_append, List.length_nil] at this; omega)]
      rw [List.take_append_of_le_length (by omega), List.take_of_length_le (by omega), List.drop_append_of_le_length (by omega)]
      rw [List.drop_eq_nil_of_le (by omega), List.nil_append, ih (fun c hc => h c (by simp [hc])) n (by simp only [List.length_cons] at hn; omega)]

theorem flatten_length8 (bs : List (List Nat)) (h : ∀ b ∈ bs, b.length = 8) : bs.flatten.length = 8 * bs.length := by
  induction bs with
  | nil => rfl
  | cons b bs ih =>
    rw [List.flatten_cons, List.length_append, ih (fun c hc => h c (by simp [hc])), h b (by simp), List.length_cons]; omega

theorem blocks_flatten (bs : List (List Nat)) (h : ∀ b ∈ bs, b.length = 8) : blocks bs.flatten = bs :=
  blocksF_flatten bs h _ (by rw [flatten_length8 bs h]; omega)

/-- Every message whose length is a multiple of 8 is a sequence of blocks. -/
theorem exists_blocks (m : List Nat) (h : m.length % 8 = 0) (hb : ∀ x ∈ m, x < 256) : ∃ bs : List (List Nat), bs.flatten = m ∧ ∀ b ∈ bs, IsBlock b := by
  have : ∀ n (m : List Nat), m.length = 8 * n → (∀ x ∈ m, x < 256) → ∃ bs : List (List Nat), bs.flatten = m ∧ ∀ b ∈ bs, IsBlock b := by
    intro n
    induction n with
    | zero => intro m hm _; match m, hm with | [], _ => exact ⟨[], rfl, by simp⟩
    | succ n ih =>
      intro m hm hx
      obtain ⟨bs, h1, h2⟩ := ih (m.drop 8) (by simp; omega) (fun x hx' => hx x (List.mem_of_mem_drop hx'))
      refine ⟨m.take 8 :: bs, by rw [List.flatten_cons, h1, List.take_append_drop], ?_⟩
      intro b hb
      rcases List.mem_cons.1 hb with rfl | hb
      · exact ⟨by simp; omega, fun x hx' => hx x (List.mem_of_mem_take hx')⟩
      · exact h2 b hb
  exact this (m.length / 8) m (by omega) hb

/-! ### The block loop -/

theorem cryptLoop_ecb (Kn : List PyDes.Bits) (enc : Bool) (iv : PyDes.Bits) (bs : List (List Nat)) :
    (cryptLoop Kn enc false iv (bs.map stringToBits)).flatMap bitsToString = (ecb (blockF Kn enc) bs).flatten := by
  induction bs with
  | nil => rfl
  | cons b bs ih =>
    show bitsToString (desCrypt Kn enc (stringToBits b)) ++ (cryptLoop Kn enc false iv (bs.map stringToBits)).flatMap bitsToString = _
    rw [ih]
    rfl

theorem cryptLoop_cbc_enc (Kn : List PyDes.Bits) (iv : List Nat) (bs : List (List Nat)) :
    (cryptLoop Kn true true (stringToBits iv) (bs.map stringToBits)).flatMap bitsToString = (cbcEncrypt (blockF Kn true) iv bs).flatten := by
  induction bs generalizing iv with
  | nil => rfl
  | cons b bs ih =>
    show bitsToString (desCrypt Kn true (xorBits (stringToBits b) (stringToBits iv))) ++
      (cryptLoop Kn true true (desCrypt Kn true (xorBits (stringToBits b) (stringToBits iv))) (bs.map stringToBits)).flatMap bitsToString = _
    rw [← stringToBits_xor, ← blockF_bits, ih, bitsToString_stringToBits _ (blockF_block _ _ _).2]
    rfl

theorem cryptLoop_cbc_dec (Kn : List PyDes.Bits) (iv : List Nat) (hiv : IsBlock iv) (bs : List (List Nat)) (hb : ∀ b ∈ bs, IsBlock b) :
    (cryptLoop Kn false true (stringToBits iv) (bs.map stringToBits)).flatMap bitsToString = (cbcDecrypt (blockF Kn false) iv bs).flatten := by
  induction bs generalizing iv with
  | nil => rfl
  | cons b bs ih =>
    show bitsToString (xorBits (desCrypt Kn false (stringToBits b)) (stringToBits iv)) ++
      (cryptLoop Kn false true (stringToBits b) (bs.map stringToBits)).flatMap bitsToString = _
    rw [ih b (hb b (by simp)) (fun c hc => hb c (by simp [hc])), ← blockF_bits, ← stringToBits_xor,
      bitsToString_stringToBits _ (xorBytes_block _ _ (blockF_block _ _ _) hiv).2]
    rfl

/-- `crypt` on whole blocks. -/
theorem crypt_blocks (d : Des) (enc : Bool) (bs : List (List Nat)) (hb : ∀ b ∈ bs, b.length = 8) (hiv : d.base.mode = CBC → d.base.iv ≠ []) :
    d.crypt bs.flatten enc = .ok ((cryptLoop d.Kn enc (decide (d.base.mode = CBC)) (stringToBits d.base.iv) (bs.map stringToBits)).flatMap bitsToString) := by
  unfold Des.crypt
  cases bs with
  | nil => rfl
  | cons b bs' =>
    have hl := flatten_length8 _ hb
    simp only [List.length_cons] at hl
    rw [if_neg (by intro hc; rw [hc] at hl; simp at hl)]
    simp only
    rw [if_neg (show ¬ (List.flatten (b :: bs')).length % 8 ≠ 0 by omega)]
    simp only
    rw [if_neg (show ¬ (d.base.mode = CBC ∧ d.base.iv = []) from fun h => hiv h.1 h.2), blocks_flatten _ hb]

theorem crypt_ecb (d : Des) (hm : d.base.mode ≠ CBC) (enc : Bool) (bs : List (List Nat)) (hb : ∀ b ∈ bs, b.length = 8) :
    d.crypt bs.flatten enc = .ok (ecb (blockF d.Kn enc) bs).flatten := by
  rw [crypt_blocks d enc bs hb (fun h => absurd h hm), decide_eq_false hm, cryptLoop_ecb]

theorem crypt_cbc_enc (d : Des) (hm : d.base.mode = CBC) (hiv : d.base.iv ≠ []) (bs : List (List Nat)) (hb : ∀ b ∈ bs, b.length = 8) :
    d.crypt bs.flatten true = .ok (cbcEncrypt (blockF d.Kn true) d.base.iv bs).flatten := by
  rw [crypt_blocks d true bs hb (fun _ => hiv), decide_eq_true hm, cryptLoop_cbc_enc]

theorem crypt_cbc_dec (d : Des) (hm : d.base.mode = CBC) (hiv : IsBlock d.base.iv) (bs : List (List Nat)) (hb : ∀ b ∈ bs, IsBlock b) :
    d.crypt bs.flatten false = .ok (cbcDecrypt (blockF d.Kn false) d.base.iv bs).flatten := by
  rw [crypt_blocks d false bs (fun b h => (hb b h).1) (fun _ => by intro h; have := hiv.1; rw [h] at this; simp at this), decide_eq_true hm, cryptLoop_cbc_dec _ _ hiv _ hb]

/-! ### Modes invert, for any pair of inverse block functions -/

theorem ecb_inverse (F G : List Nat → List Nat) (h : ∀ b, IsBlock b → G (F b) = b) (bs : List (List Nat)) (hb : ∀ b ∈ bs, IsBlock b) :
    ecb G (ecb F bs) = bs := by
  unfold ecb
  rw [List.map_map]
  conv => rhs; rw [← List.map_id bs]
  apply List.map_congr_left
  intro b hb'
  exact h b (hb b hb')

theorem cbc_inverse (F G : List Nat → List Nat) (h : ∀ b, IsBlock b → G (F b) = b) (hF : ∀ b, IsBlock b → IsBlock (F b)) (iv : List Nat) (hiv : IsBlock iv)
    (bs : List (List Nat)) (hb : ∀ b ∈ bs, IsBlock b) : cbcDecrypt G iv (cbcEncrypt F iv bs) = bs := by
  induction bs generalizing iv with
  | nil => rfl
  | cons b bs ih =>
    have hbb := hb b (by simp)
    have hx := xorBytes_block b iv hbb hiv
    show xorBytes (G (F (xorBytes b iv))) iv :: cbcDecrypt G (F (xorBytes b iv)) (cbcEncrypt F (F (xorBytes b iv)) bs) = _
    rw [h _ hx, xorBytes_cancel _ _ (by rw [hbb.1, hiv.1]), ih _ (hF _ hx) (fun c hc => hb c (by simp [hc]))]

theorem ecb_blocks (F : List Nat → List Nat) (hF : ∀ b, IsBlock b → IsBlock (F b)) (bs : List (List Nat)) (hb : ∀ b ∈ bs, IsBlock b) :
    (∀ b ∈ ecb F bs, IsBlock b) ∧ (ecb F bs).length = bs.length := by
  refine ⟨?_, by simp [ecb]⟩
  intro b hb'
  obtain ⟨a, ha, rfl⟩ := List.mem_map.1 hb'
  exact hF a (hb a ha)

theorem cbcEncrypt_blocks (F : List Nat → List Nat) (hF : ∀ b, IsBlock b → IsBlock (F b)) (iv : List Nat) (hiv : IsBlock iv) (bs : List (List Nat)) (hb : ∀ b ∈ bs, IsBlock b) :
    (∀ b ∈ cbcEncrypt F iv bs, IsBlock b) ∧ (cbcEncrypt F iv bs).length = bs.length := by
  induction bs generalizing iv with
  | nil => exact ⟨by intro b hb; simp [cbcEncrypt] at hb, rfl⟩
  | cons b bs ih =>
    have hx := hF _ (xorBytes_block b iv (hb b (by simp)) hiv)
    obtain ⟨h1, h2⟩ := ih _ hx (fun c hc => hb c (by simp [hc]))
    refine ⟨?_, by simp [cbcEncrypt, h2]⟩
    intro c hc
    rcases List.mem_cons.1 hc with rfl | hc
    · exact hx
    · exact h1 c hc

theorem cbcDecrypt_blocks (G : List Nat → List Nat) (hG : ∀ b, IsBlock b → IsBlock (G b)) (iv : List Nat) (hiv : IsBlock iv) (bs : List (List Nat)) (hb : ∀ b ∈ bs, IsBlock b) :
    (∀ b ∈ cbcDecrypt G iv bs, IsBlock b) ∧ (cbcDecrypt G iv bs).length = bs.length := by
  induction bs generalizing iv with
  | nil => exact ⟨by intro b hb; simp [cbcDecrypt] at hb, rfl⟩
  | cons b bs ih =>
    have hbb := hb b (by simp)
    obtain ⟨h1, h2⟩ := ih _ hbb (fun c hc => hb c (by simp [hc]))
    refine ⟨?_, by simp [cbcDecrypt, h2]⟩
    intro c hc
    rcases List.mem_cons.1 hc with rfl | hc
    · exact xorBytes_block _ _ (hG _ hbb) hiv
    · exact h1 c hc

theorem flatten_bytes (bs : List (List Nat)) (hb : ∀ b ∈ bs, IsBlock b) : ∀ x ∈ bs.flatten, x < 256 := by
  intro x hx
  obtain ⟨b, hb', hx'⟩ := List.mem_flatten.1 hx
  exact (hb b hb').2 x hx'

/-! ### Padding -/

theorem sliceTo_neg {α} (l : List α) (k : Nat) (hk : 0 < k) : sliceTo l (-(k : Int)) = l.take (l.length - k) := by
  unfold sliceTo bound
  rw [if_neg (by omega)]
  congr 1
  omega

theorem sliceTo_zero {α} (l : List α) : sliceTo l 0 = [] := by
  unfold sliceTo bound
  rw [if_pos (by omega)]
  simp

theorem sliceFrom_neg {α} (l : List α) (k : Nat) (hk : 0 < k) : sliceFrom l (-(k : Int)) = l.drop (l.length - k) := by
  unfold sliceFrom bound
  rw [if_neg (by omega)]
  congr 1
  omega

theorem unpad_pad_pkcs5 (b b' : Base) (hb : b.padmode = PAD_PKCS5) (hb' : b'.padmode = PAD_PKCS5) (m : List Nat) :
    ∃ m', b.padData m none none = .ok m' ∧ m'.length = (m.length / 8 + 1) * 8 ∧ (∀ x ∈ m', x ∈ m ∨ (1 ≤ x ∧ x ≤ 8)) ∧ b'.unpadData m' none none = .ok m := by
  refine ⟨m ++ List.replicate (8 - m.length % 8) (8 - m.length % 8), ?_, ?_, ?_, ?_⟩
  · unfold Base.padData
    rw [if_neg (by simp)]
    rw [if_neg (by simp [hb, PAD_PKCS5, PAD_NORMAL]), if_pos (by simp [hb])]
  · simp only [List.length_append, List.length_replicate]; omega
  · intro x hx
    rcases List.mem_append.1 hx with hx | hx
    · exact .inl hx
    · right
      have := List.eq_of_mem_replicate hx
      omega
  · obtain ⟨k, hk, hk8⟩ : ∃ k, 8 - m.length % 8 = k + 1 ∧ k < 8 := ⟨7 - m.length % 8, by omega, by omega⟩
    unfold Base.unpadData
    have hl : (m ++ List.replicate (8 - m.length % 8) (8 - m.length % 8)).getLast? = some (8 - m.length % 8) := by
      rw [hk, List.replicate_succ', ← List.append_assoc, List.getLast?_concat]
    rw [hl]
    simp only
    rw [if_neg (by simp), if_neg (by simp [hb', PAD_PKCS5, PAD_NORMAL]), if_pos (by simp [hb'])]
    rw [sliceTo_neg _ _ (by omega)]
    congr 1
    rw [List.length_append, List.length_replicate, Nat.add_sub_cancel, List.take_left]

end Verif.Model.PyDes
