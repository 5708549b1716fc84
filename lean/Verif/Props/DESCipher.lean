import Verif.Props.TripleDES
import Verif.Props.RSA
/-! C62: the DES ciphers of the Cipher API. -/
namespace Verif.Props
open Verif.Py Verif.Model Verif.Model.PyDes Verif.Spec Verif.Spec.DES

/-! ### Specification -/

/-- The byte value (0..255) of an array cell, whether it is written signed or unsigned. -/
def valueOf (x : Int) : Nat := (x % 256).toNat

/-- The signed cell for a byte value. -/
def signedCell (n : Nat) : Int := if n < 128 then n else (n : Int) - 256

/-- The block cipher for a key: DES for 8 bytes, two- or three-key triple DES for 16 or 24 bytes. -/
def blockCipher (key block : List Nat) : List Nat :=
  if key.length = 8 then encipher key block
  else if key.length = 16 then encipher3 (key.take 8) (key.drop 8) (key.take 8) block
  else encipher3 (key.take 8) ((key.drop 8).take 8) (key.drop 16) block

/-- `c` is the encryption of `m`: ALG_DES_CBC_NOPAD = 1, ALG_DES_CBC_PKCS5 = 4, ALG_DES_ECB_NOPAD = 5, ALG_DES_ECB_PKCS5 = 8. -/
def Encrypts (alg : Int) (key iv m c : List Nat) : Prop :=
  ∃ bs : List (List Nat), (∀ b ∈ bs, IsBlock b) ∧
    (bs.flatten = m ∧ (alg = 1 ∨ alg = 5) ∨ ∃ k, 1 ≤ k ∧ k ≤ 8 ∧ bs.flatten = m ++ List.replicate k k ∧ (alg = 4 ∨ alg = 8)) ∧
    (c = (ecb (blockCipher key) bs).flatten ∧ (alg = 5 ∨ alg = 8) ∨ c = (cbcEncrypt (blockCipher key) iv bs).flatten ∧ (alg = 1 ∨ alg = 4))

/-- Histories of `doFinal` calls on a cipher, with any arguments and whatever their outcome. -/
inductive Finals (c0 : DESCipher) : DESCipher → Prop
  | new : Finals c0 c0
  | doFinal {c} (inB : List Int) (io il : Int) (outB : List Int) (oo : Int) : Finals c0 c → Finals c0 (c.doFinal inB io il outB oo).2.2

/-! ### The cipher object -/

def decBlock (key block : List Nat) : List Nat :=
  if key.length = 8 then decipher key block
  else decipher3 (key.take 8) ((key.drop 8).take 8) (third key) block

theorem blockCipher_eq (key : List Nat) (h : key.length = 8) : blockCipher key = encipher key := by funext b; unfold blockCipher; rw [if_pos h]
theorem blockCipher3_eq (key : List Nat) (h : key.length = 16 ∨ key.length = 24) :
    blockCipher key = encipher3 (key.take 8) ((key.drop 8).take 8) (third key) := by
  funext b
  unfold blockCipher third
  rw [if_neg (by omega)]
  rcases h with h | h
  · rw [if_pos h, if_pos h, List.take_of_length_le (l := key.drop 8) (by simp; omega)]
  · rw [if_neg (by omega), if_neg (by omega)]
theorem decBlock_eq (key : List Nat) (h : key.length = 8) : decBlock key = decipher key := by funext b; unfold decBlock; rw [if_pos h]
theorem decBlock3_eq (key : List Nat) (h : key.length ≠ 8) : decBlock key = decipher3 (key.take 8) ((key.drop 8).take 8) (third key) := by
  funext b; unfold decBlock; rw [if_neg h]

theorem blockCipher_block (key : List Nat) (b : List Nat) : IsBlock (blockCipher key b) := by
  unfold blockCipher
  split
  · exact encipher_block _ _
  · split <;> exact encipher3_block _ _ _ _

theorem dec_blockCipher (key : List Nat) (hk : key.length = 8 ∨ key.length = 16 ∨ key.length = 24) (b : List Nat) (hb : IsBlock b) :
    decBlock key (blockCipher key b) = b := by
  rcases hk with hk | hk
  · rw [decBlock_eq key hk, blockCipher_eq key hk]; exact (C57_standard key b hb).1
  · rw [decBlock3_eq key (by omega), blockCipher3_eq key hk]; exact (C61_standard _ _ _ b hb).1

/-- The pyDes object made from a key. -/
def ObjLike (o : DesObj) (key iv : List Nat) (mode padmode : Nat) : Prop :=
  (key.length = 8 ∧ o = .single ⟨⟨mode, iv, none, padmode⟩, createSubKeys key⟩) ∨
  ((key.length = 16 ∨ key.length = 24) ∧ ∃ t, o = .triple t ∧ Like t ⟨mode, iv, none, padmode⟩ (key.take 8) ((key.drop 8).take 8) (third key))

theorem objLike_run (o o' : DesObj) (key iv : List Nat) (mode padmode : Nat) (h : ObjLike o key iv mode padmode) (enc : Bool) (m r : List Nat)
    (e : DESCipher.runObj o enc m = .ok (r, o')) : ObjLike o' key iv mode padmode := by
  rcases h with ⟨h1, rfl⟩ | ⟨h1, t, rfl, h2⟩
  · left
    unfold DESCipher.runObj at e
    simp only at e
    split at e
    · cases e
    · injection e with e; injection e with _ e; exact ⟨h1, e.symm⟩
  · right
    unfold DESCipher.runObj at e
    simp only at e
    split at e
    · cases e
    · rename_i r' t' he
      injection e with e; injection e with _ e
      refine ⟨h1, t', e.symm, ?_⟩
      cases enc with
      | true => rw [if_pos rfl] at he; exact encrypt_like h2 he
      | false => rw [if_neg (by simp)] at he; exact decrypt_like h2 he

theorem runObj_encrypt (o : DesObj) (key iv : List Nat) (mode padmode : Nat) (h : ObjLike o key iv mode padmode) (hiv : IsBlock iv) (hmode : mode = 0 ∨ mode = 1)
    (m : List Nat) (bs : List (List Nat)) (hb : ∀ b ∈ bs, IsBlock b) (hp : (Base.mk mode iv none padmode).padData m none none = .ok bs.flatten) :
    ∃ o', DESCipher.runObj o true m = .ok ((if mode = 0 then ecb (blockCipher key) bs else cbcEncrypt (blockCipher key) iv bs).flatten, o') := by
  rcases h with ⟨h1, rfl⟩ | ⟨h1, t, rfl, h2⟩
  · rw [blockCipher_eq key h1]
    refine ⟨.single ⟨⟨mode, iv, none, padmode⟩, createSubKeys key⟩, ?_⟩
    have e : (Des.mk ⟨mode, iv, none, padmode⟩ (createSubKeys key)).encrypt m none none =
        .ok (if mode = 0 then ecb (encipher key) bs else cbcEncrypt (encipher key) iv bs).flatten := by
      unfold Des.encrypt
      rw [hp]
      simp only
      rcases hmode with rfl | rfl
      · rw [crypt_ecb _ (by show (0 : Nat) ≠ 1; decide) true bs (fun b h => (hb b h).1), enc_eq, if_pos rfl]
      · rw [crypt_cbc_enc _ (by rfl) (iv_block_ne iv hiv) bs (fun b h => (hb b h).1), enc_eq, if_neg (by decide)]
    unfold DESCipher.runObj
    simp only
    rw [if_pos trivial, e]
  · rw [blockCipher3_eq key h1]
    unfold DESCipher.runObj
    simp only
    rw [if_pos trivial]
    rcases hmode with rfl | rfl
    · obtain ⟨t', ht'⟩ := (like_encrypt t _ _ _ _ h2 bs hb m none none hp).1 (by show (0 : Nat) ≠ 1; decide)
      rw [ht']
      exact ⟨_, rfl⟩
    · obtain ⟨t', ht'⟩ := (like_encrypt t _ _ _ _ h2 bs hb m none none hp).2 rfl hiv
      rw [ht']
      exact ⟨_, rfl⟩

theorem runObj_decrypt (o : DesObj) (key iv : List Nat) (mode padmode : Nat) (h : ObjLike o key iv mode padmode) (hiv : IsBlock iv) (hmode : mode = 0 ∨ mode = 1)
    (m : List Nat) (bs : List (List Nat)) (hb : ∀ b ∈ bs, IsBlock b)
    (hu : (Base.mk mode iv none padmode).unpadData (if mode = 0 then ecb (decBlock key) bs else cbcDecrypt (decBlock key) iv bs).flatten none none = .ok m) :
    ∃ o', DESCipher.runObj o false bs.flatten = .ok (m, o') := by
  rcases h with ⟨h1, rfl⟩ | ⟨h1, t, rfl, h2⟩
  · rw [decBlock_eq key h1] at hu
    refine ⟨.single ⟨⟨mode, iv, none, padmode⟩, createSubKeys key⟩, ?_⟩
    have e : (Des.mk ⟨mode, iv, none, padmode⟩ (createSubKeys key)).decrypt bs.flatten none none = .ok m := by
      unfold Des.decrypt
      rcases hmode with rfl | rfl
      · rw [crypt_ecb _ (by show (0 : Nat) ≠ 1; decide) false bs (fun b h => (hb b h).1), dec_eq]
        exact hu
      · rw [crypt_cbc_dec _ (by rfl) hiv bs hb, dec_eq]
        exact hu
    unfold DESCipher.runObj
    simp only
    rw [if_neg (by simp), e]
  · rw [decBlock3_eq key (by omega)] at hu
    unfold DESCipher.runObj
    simp only
    rw [if_neg (by simp)]
    rcases hmode with rfl | rfl
    · obtain ⟨t', ht'⟩ := (like_decrypt t _ _ _ _ h2 bs hb none none).1 (by show (0 : Nat) ≠ 1; decide) m hu
      rw [ht']
      exact ⟨_, rfl⟩
    · obtain ⟨t', ht'⟩ := (like_decrypt t _ _ _ _ h2 bs hb none none).2 rfl hiv m hu
      rw [ht']
      exact ⟨_, rfl⟩

/-! ### The cipher after init -/

/-- A cipher made by `getInstance(alg)` and initialised for `mode` with the key bytes `key` and the IV bytes `iv`. -/
structure Ready (c : DESCipher) (alg mode : Int) (key iv : List Nat) : Prop where
  init : c.base.initialized = true
  mode : c.base.mode = some mode
  obj : ∃ o, c.cipher = some o ∧ ObjLike o key iv (if alg = 5 ∨ alg = 8 then 0 else 1) (if alg = 5 ∨ alg = 1 then 1 else 2)

theorem ready_doFinal (c : DESCipher) (alg mode : Int) (key iv : List Nat) (h : Ready c alg mode key iv) (inB : List Int) (io il : Int) (outB : List Int) (oo : Int) :
    Ready (c.doFinal inB io il outB oo).2.2 alg mode key iv := by
  obtain ⟨o, h1, h2⟩ := h.obj
  unfold DESCipher.doFinal
  rw [if_neg (by simp [h.init]), h1]
  simp only
  split
  · exact h
  · split
    · exact h
    · rename_i r o' he
      have ho := objLike_run o o' key iv _ _ h2 _ _ _ he
      split <;> exact ⟨h.init, h.mode, o', rfl, ho⟩

theorem ready_finals (c0 c : DESCipher) (alg mode : Int) (key iv : List Nat) (h0 : Ready c0 alg mode key iv) (h : Finals c0 c) : Ready c alg mode key iv := by
  induction h with
  | new => exact h0
  | doFinal inB io il outB oo _ ih => exact ready_doFinal _ _ _ _ _ ih inB io il outB oo

theorem binary_values (a : List Int) : arrayToBinary a = a.map valueOf := by
  unfold arrayToBinary valueOf
  apply List.map_congr_left
  intro x _
  have := arrayToBinary_elem x
  omega

theorem binary_cells (l : List Nat) (h : ∀ x ∈ l, x < 256) : binaryToArray l = l.map signedCell := by
  unfold binaryToArray signedCell
  apply List.map_congr_left
  intro x hx
  have := h x hx
  by_cases h' : x < 128
  · rw [if_pos h', s1_byte _ (by omega)]
  · rw [if_neg h', s1_high _ (by omega) (by omega)]

theorem values_lt (a : List Int) : ∀ x ∈ a.map valueOf, x < 256 := by
  intro x hx
  obtain ⟨y, _, rfl⟩ := List.mem_map.1 hx
  unfold valueOf
  omega

theorem value_cell (x : Nat) (h : x < 256) : valueOf (signedCell x) = x := by
  unfold valueOf signedCell
  split <;> omega

theorem range_length (l : List Int) (off n : Nat) (h : off + n ≤ l.length) : (range l off n).length = n := by simp [range]; omega

theorem des_doFinal (c : DESCipher) (o o' : DesObj) (enc : Bool) (h1 : c.base.initialized = true) (h2 : decide (c.base.mode = some 2) = enc) (h3 : c.cipher = some o)
    (inB : List Int) (io n : Nat) (hin : io + n ≤ inB.length) (r : List Nat) (hr : DESCipher.runObj o enc ((range inB io n).map valueOf) = .ok (r, o'))
    (hx : ∀ x ∈ r, x < 256) (outB : List Int) (oo : Nat) :
    (oo + r.length ≤ outB.length → ∃ out, c.doFinal inB io n outB oo = (.ok r.length, out, { c with cipher := some o' }) ∧ Written outB out oo (r.map signedCell)) ∧
    (outB.length < oo + r.length → r ≠ [] → ∃ out c', c.doFinal inB io n outB oo = (.error .arrayIndexOutOfBounds, out, c')) := by
  unfold DESCipher.doFinal
  rw [if_neg (by simp [h1]), h3]
  simp only
  rw [(data_copy inB io n).1 hin]
  simp only
  rw [show decide (c.base.mode = some MODE_ENCRYPT) = enc from h2, binary_values, hr]
  simp only
  rw [binary_cells r hx]
  have hl : (r.map signedCell).length = r.length := by simp
  constructor
  · intro ho
    have := arrayCopy_ok (r.map signedCell) outB 0 oo (r.map signedCell).length (by omega) (by omega)
    rw [show ((0 : Nat) : Int) = 0 from rfl] at this
    rw [this]
    simp only
    refine ⟨_, by rw [hl], ?_⟩
    have hw := written_splice outB oo (r.map signedCell) (by omega)
    rw [List.drop_zero, List.take_of_length_le (by omega)]
    exact hw
  · intro ho hne
    have hpos : 0 < r.length := List.length_pos_iff.2 hne
    have := arrayCopy_eq (r.map signedCell) outB 0 oo (r.map signedCell).length
    rw [show ((0 : Nat) : Int) = 0 from rfl] at this
    rw [this]
    simp only
    rw [if_neg (by omega)]
    exact ⟨_, _, rfl⟩

theorem encrypts_iff (alg : Int) (halg : alg = 1 ∨ alg = 4 ∨ alg = 5 ∨ alg = 8) (key iv m c : List Nat) :
    Encrypts alg key iv m c ↔ ∃ bs : List (List Nat), (∀ b ∈ bs, IsBlock b) ∧
      (if alg = 5 ∨ alg = 1 then bs.flatten = m else ∃ k, 1 ≤ k ∧ k ≤ 8 ∧ bs.flatten = m ++ List.replicate k k) ∧
      c = (if alg = 5 ∨ alg = 8 then ecb (blockCipher key) bs else cbcEncrypt (blockCipher key) iv bs).flatten := by
  unfold Encrypts
  apply exists_congr
  intro bs
  rcases halg with rfl | rfl | rfl | rfl <;> simp <;> intro _ <;> constructor <;> rintro ⟨h1, h2⟩ <;> exact ⟨h1, h2⟩

/-- Padding as the code does it. -/
theorem pad_code (alg : Int) (mode : Nat) (iv m : List Nat) (hm : (alg = 5 ∨ alg = 1) → m.length % 8 = 0) (hx : ∀ x ∈ m, x < 256) :
    ∃ bs : List (List Nat), (∀ b ∈ bs, IsBlock b) ∧
      (if alg = 5 ∨ alg = 1 then bs.flatten = m else ∃ k, 1 ≤ k ∧ k ≤ 8 ∧ bs.flatten = m ++ List.replicate k k) ∧
      (Base.mk mode iv none (if alg = 5 ∨ alg = 1 then 1 else 2)).padData m none none = .ok bs.flatten := by
  by_cases h : alg = 5 ∨ alg = 1
  · obtain ⟨bs, h1, h2⟩ := exists_blocks m (hm h) hx
    refine ⟨bs, h2, by rw [if_pos h]; exact h1, ?_⟩
    rw [if_pos h, padData_none _ rfl m (hm h), h1]
  · have hl : (m ++ List.replicate (8 - m.length % 8) (8 - m.length % 8)).length % 8 = 0 := by
      simp only [List.length_append, List.length_replicate]; omega
    obtain ⟨bs, h1, h2⟩ := exists_blocks _ hl (by
      intro x h
      rcases List.mem_append.1 h with h | h
      · exact hx x h
      · rw [List.eq_of_mem_replicate h]; omega)
    refine ⟨bs, h2, ?_, ?_⟩
    · rw [if_neg h]; exact ⟨8 - m.length % 8, by omega, by omega, h1⟩
    · rw [if_neg h, h1]
      unfold Base.padData
      rw [if_neg (by simp)]
      simp only [Option.getD_none]
      rw [if_neg (by simp [PAD_NORMAL]), if_pos (by rfl)]

theorem unpad_code (alg : Int) (mode : Nat) (iv m p : List Nat)
    (h : if alg = 5 ∨ alg = 1 then p = m else ∃ k, 1 ≤ k ∧ k ≤ 8 ∧ p = m ++ List.replicate k k) :
    (Base.mk mode iv none (if alg = 5 ∨ alg = 1 then 1 else 2)).unpadData p none none = .ok m := by
  by_cases ha : alg = 5 ∨ alg = 1
  · rw [if_pos ha] at h ⊢
    rw [h]
    exact unpadData_none _ rfl rfl m
  · rw [if_neg ha] at h ⊢
    obtain ⟨k, h1, h2, rfl⟩ := h
    unfold Base.unpadData
    have hl : (m ++ List.replicate k k).getLast? = some k := by
      obtain ⟨j, rfl⟩ : ∃ j, k = j + 1 := ⟨k - 1, by omega⟩
      rw [List.replicate_succ', ← List.append_assoc, List.getLast?_concat]
    rw [hl]
    simp only
    rw [if_neg (by simp), if_neg (by simp [PAD_NORMAL]), if_pos (by simp [PAD_PKCS5])]
    rw [sliceTo_neg _ _ (by omega)]
    congr 1
    rw [List.length_append, List.length_replicate, Nat.add_sub_cancel, List.take_left]

theorem chained_blocks (alg : Int) (key iv : List Nat) (hiv : IsBlock iv) (bs : List (List Nat)) (hb : ∀ b ∈ bs, IsBlock b) :
    (∀ b ∈ (if alg = 5 ∨ alg = 8 then ecb (blockCipher key) bs else cbcEncrypt (blockCipher key) iv bs), IsBlock b) ∧
    (if alg = 5 ∨ alg = 8 then ecb (blockCipher key) bs else cbcEncrypt (blockCipher key) iv bs).length = bs.length := by
  split
  · exact ecb_blocks _ (fun b _ => blockCipher_block key b) bs hb
  · exact cbcEncrypt_blocks _ (fun b _ => blockCipher_block key b) iv hiv bs hb

theorem mode_if (alg : Int) (A B : List (List Nat)) : (if (if alg = 5 ∨ alg = 8 then 0 else 1 : Nat) = 0 then A else B) = (if alg = 5 ∨ alg = 8 then A else B) := by
  by_cases h : alg = 5 ∨ alg = 8
  · simp [h]
  · simp [h]

/-! ### The property -/

/-- C62. Initialisation: a good call of `init` on a cipher of `getInstance(alg)`, whatever was done to it before, makes it ready
for the key bytes and the eight IV cells, in the given mode. -/
theorem C62_init (alg : Int) (l : List DESInitCall) (heap : KeyHeap) (r : Nat) (k : DESKey) (key : List Nat) (mode : Int) (iv : List Int) (off : Nat)
    (hk : heap r = .des k) (hi : k.initialized = true) (hkey : k.key = some key) (hsize : if k.size = 64 then key.length = 8 else key.length = 16 ∨ key.length = 24)
    (hmode : mode = 1 ∨ mode = 2) (hiv : off + 8 ≤ iv.length) :
    ∃ c, (desInits (DESCipher.new alg) l).init heap (.key r) mode iv off 8 = (.ok (), c) ∧ Ready c alg mode key ((range iv off 8).map valueOf) := by
  have key0 : ∀ l (c : DESCipher), (desInits c l).desmode = c.desmode ∧ (desInits c l).padmode = c.padmode := by
    intro l
    induction l with
    | nil => intro c; exact ⟨rfl, rfl⟩
    | cons a l ih =>
      intro c
      have e : desInits c (a :: l) = desInits (c.init a.heap a.key a.mode a.iv a.off a.len).2 l := rfl
      have hi : (c.init a.heap a.key a.mode a.iv a.off a.len).2.desmode = c.desmode ∧ (c.init a.heap a.key a.mode a.iv a.off a.len).2.padmode = c.padmode := by
        unfold DESCipher.init
        simp only
        repeat' split
        all_goals exact ⟨rfl, rfl⟩
      rw [e, (ih _).1, (ih _).2]
      exact hi
  obtain ⟨d1, d2⟩ := key0 l (DESCipher.new alg)
  generalize desInits (DESCipher.new alg) l = c at d1 d2
  have hm : (mode = MODE_ENCRYPT ∨ mode = MODE_DECRYPT) := by unfold MODE_ENCRYPT MODE_DECRYPT; omega
  have hinit : (KeyObj.des k).isInitialized = true := hi
  have hivl : ((range iv off 8).map valueOf).length = 8 := by rw [List.length_map, range_length _ _ _ hiv]
  unfold DESCipher.init CipherBase.init
  simp only [hk, hinit]
  rw [if_neg (by simp), if_neg (by intro h; exact h hm)]
  simp only [hk]
  rw [if_neg (by simp), (iv_copy iv off).1 hiv]
  simp only [hkey, binary_values]
  have e1 : c.desmode = if alg = 5 ∨ alg = 8 then 0 else 1 := d1
  have e2 : c.padmode = if alg = 5 ∨ alg = 1 then 1 else 2 := d2
  by_cases h64 : k.size = 64
  · rw [if_pos h64] at hsize
    rw [if_pos h64, (desNew_eq key _ _ _ hivl).1 hsize]
    exact ⟨_, rfl, rfl, rfl, _, rfl, .inl ⟨hsize, by rw [e1, e2]⟩⟩
  · rw [if_neg h64] at hsize
    rw [if_neg h64, (tripleNew_eq key _ _ _ hivl).1 hsize]
    refine ⟨_, rfl, rfl, rfl, _, rfl, .inr ⟨hsize, _, rfl, ?_⟩⟩
    rw [← e1, ← e2]
    exact ⟨rfl, rfl, rfl, rfl, rfl, rfl, rfl⟩

/-- C62. Encryption: after any history of `doFinal` calls, `doFinal` on `n` input cells (signed or unsigned; for NOPAD `n` a multiple
of 8) encrypts them as the standards say; it writes the ciphertext as signed bytes at the output offset, nothing else, and returns its
length; without room it raises ArrayIndexOutOfBoundsException. The output array may be the input array. -/
theorem C62_encrypt (alg : Int) (halg : alg = 1 ∨ alg = 4 ∨ alg = 5 ∨ alg = 8) (key iv : List Nat) (hiv : IsBlock iv) (c0 c : DESCipher)
    (h0 : Ready c0 alg 2 key iv) (h : Finals c0 c) (inB : List Int) (io n : Nat) (hin : io + n ≤ inB.length) (hn : alg = 1 ∨ alg = 5 → n % 8 = 0) :
    ∃ ct, Encrypts alg key iv ((range inB io n).map valueOf) ct ∧ ct.length = (if alg = 1 ∨ alg = 5 then n else (n / 8 + 1) * 8) ∧
      ∀ outB (oo : Nat), (oo + ct.length ≤ outB.length → ∃ out c', c.doFinal inB io n outB oo = (.ok ct.length, out, c') ∧ Written outB out oo (ct.map signedCell)) ∧
        (outB.length < oo + ct.length → ct ≠ [] → ∃ out c', c.doFinal inB io n outB oo = (.error .arrayIndexOutOfBounds, out, c')) := by
  have hr := ready_finals c0 c alg 2 key iv h0 h
  obtain ⟨o, ho1, ho2⟩ := hr.obj
  have hrl := range_length inB io n hin
  generalize hmm : (range inB io n).map valueOf = m
  have hml : m.length = n := by rw [← hmm, List.length_map, hrl]
  have hx : ∀ x ∈ m, x < 256 := by rw [← hmm]; exact values_lt _
  obtain ⟨bs, hb, hb1, hb2⟩ := pad_code alg (if alg = 5 ∨ alg = 8 then 0 else 1) iv m (by intro h; rw [hml]; exact hn (by omega)) hx
  obtain ⟨o', e⟩ := runObj_encrypt o key iv _ _ ho2 hiv (by split <;> simp) m bs hb hb2
  rw [mode_if] at e
  obtain ⟨g1, g2⟩ := chained_blocks alg key iv hiv bs hb
  refine ⟨_, (encrypts_iff alg halg key iv m _).2 ⟨bs, hb, hb1, rfl⟩, ?_, ?_⟩
  · rw [flatten_length8 _ (fun b h => (g1 b h).1), g2, ← flatten_length8 bs (fun b h => (hb b h).1)]
    have h8 := flatten_mod8 bs hb
    by_cases ha : alg = 5 ∨ alg = 1
    · rw [if_pos ha] at hb1
      rw [if_pos (by omega), hb1, hml]
    · rw [if_neg ha] at hb1
      obtain ⟨k, k1, k2, k3⟩ := hb1
      have := congrArg List.length k3
      simp only [List.length_append, List.length_replicate] at this
      rw [if_neg (by omega)]
      omega
  · intro outB oo
    have := des_doFinal c o o' true hr.init (by rw [hr.mode]; rfl) ho1 inB io n hin _ (by rw [hmm]; exact e) (flatten_bytes _ g1) outB oo
    exact ⟨fun h => let ⟨out, a, b⟩ := this.1 h; ⟨out, _, a, b⟩, this.2⟩

/-- C62. Decryption: `doFinal` on cells spelling an encryption of `m` under the same key, IV and algorithm writes `m` as signed bytes,
nothing else, and returns its length. -/
theorem C62_decrypt (alg : Int) (halg : alg = 1 ∨ alg = 4 ∨ alg = 5 ∨ alg = 8) (key iv : List Nat) (hiv : IsBlock iv) (c0 c : DESCipher)
    (h0 : Ready c0 alg 1 key iv) (h : Finals c0 c) (m ct : List Nat) (hx : ∀ x ∈ m, x < 256) (he : Encrypts alg key iv m ct)
    (inB : List Int) (io : Nat) (hin : io + ct.length ≤ inB.length) (hct : (range inB io ct.length).map valueOf = ct) (outB : List Int) (oo : Nat) :
    (oo + m.length ≤ outB.length → ∃ out c', c.doFinal inB io ct.length outB oo = (.ok m.length, out, c') ∧ Written outB out oo (m.map signedCell)) ∧
    (outB.length < oo + m.length → m ≠ [] → ∃ out c', c.doFinal inB io ct.length outB oo = (.error .arrayIndexOutOfBounds, out, c')) := by
  have hr := ready_finals c0 c alg 1 key iv h0 h
  obtain ⟨o, ho1, ho2⟩ := hr.obj
  obtain ⟨bs, hb, hb1, hb2⟩ := (encrypts_iff alg halg key iv m ct).1 he
  obtain ⟨g1, g2⟩ := chained_blocks alg key iv hiv bs hb
  have hk : key.length = 8 ∨ key.length = 16 ∨ key.length = 24 := by
    rcases ho2 with ⟨h, _⟩ | ⟨h, _⟩
    · exact .inl h
    · exact .inr h
  have hdec : (if alg = 5 ∨ alg = 8 then ecb (decBlock key) (if alg = 5 ∨ alg = 8 then ecb (blockCipher key) bs else cbcEncrypt (blockCipher key) iv bs)
      else cbcDecrypt (decBlock key) iv (if alg = 5 ∨ alg = 8 then ecb (blockCipher key) bs else cbcEncrypt (blockCipher key) iv bs)) = bs := by
    split
    · exact ecb_inverse _ _ (dec_blockCipher key hk) bs hb
    · exact cbc_inverse _ _ (dec_blockCipher key hk) (fun b _ => blockCipher_block key b) iv hiv bs hb
  obtain ⟨o', e⟩ := runObj_decrypt o key iv _ _ ho2 hiv (by split <;> simp) m _ g1 (by rw [mode_if, hdec]; exact unpad_code alg _ iv m _ hb1)
  rw [← hb2] at e
  have := des_doFinal c o o' false hr.init (by rw [hr.mode]; rfl) ho1 inB io ct.length hin m (by rw [hct]; exact e) hx outB oo
  exact ⟨fun h => let ⟨out, a, b⟩ := this.1 h; ⟨out, _, a, b⟩, this.2⟩

theorem written_range (old new : List Int) (off : Nat) (vs : List Int) (h : Written old new off vs) : range new off vs.length = vs := by
  obtain ⟨h1, h2, h3, _⟩ := h
  apply List.ext_getElem?
  intro i
  unfold range
  by_cases hi : i < vs.length
  · rw [List.getElem?_take_of_lt hi, List.getElem?_drop, h3 i hi, List.getElem?_eq_getElem hi]
  · rw [List.getElem?_eq_none (by simp; omega), List.getElem?_eq_none (by omega)]

/-- C62. Round trip through arrays: encrypting any range of any array into a buffer and decrypting it from there, into the same or
another buffer, gives the signed bytes of the original cells back. Both ciphers may have been used before in any way. -/
theorem C62_roundtrip (alg : Int) (halg : alg = 1 ∨ alg = 4 ∨ alg = 5 ∨ alg = 8) (key iv : List Nat) (hiv : IsBlock iv) (e0 e d0 d : DESCipher)
    (he0 : Ready e0 alg 2 key iv) (he : Finals e0 e) (hd0 : Ready d0 alg 1 key iv) (hd : Finals d0 d)
    (inB : List Int) (io n : Nat) (hin : io + n ≤ inB.length) (hn : alg = 1 ∨ alg = 5 → n % 8 = 0)
    (buf : List Int) (bo : Nat) (hbuf : bo + (n / 8 + 1) * 8 ≤ buf.length) (oo : Nat) :
    ∃ (N : Nat) (buf' : List Int) (e' : DESCipher), e.doFinal inB io n buf bo = (.ok (N : Int), buf', e') ∧ N = (if alg = 1 ∨ alg = 5 then n else (n / 8 + 1) * 8) ∧
      (∀ outB : List Int, oo + n ≤ outB.length →
        ∃ out d', d.doFinal buf' bo N outB oo = (.ok (n : Int), out, d') ∧ Written outB out oo ((range inB io n).map fun x => signedCell (valueOf x))) ∧
      (oo + n ≤ buf'.length →
        ∃ out d', d.doFinal buf' bo N buf' oo = (.ok (n : Int), out, d') ∧ Written buf' out oo ((range inB io n).map fun x => signedCell (valueOf x))) := by
  obtain ⟨ct, h1, h2, h3⟩ := C62_encrypt alg halg key iv hiv e0 e he0 he inB io n hin hn
  have hctl : ct.length ≤ (n / 8 + 1) * 8 := by rw [h2]; split <;> omega
  obtain ⟨buf', e', g1, g2⟩ := (h3 buf bo).1 (by omega)
  have hlt : ∀ x ∈ ct, x < 256 := by
    obtain ⟨bs, hb, _, rfl⟩ := (encrypts_iff alg halg key iv _ ct).1 h1
    exact flatten_bytes _ (chained_blocks alg key iv hiv bs hb).1
  have hrange : (range buf' bo ct.length).map valueOf = ct := by
    have := written_range _ _ _ _ g2
    rw [List.length_map] at this
    rw [this, List.map_map]
    conv => rhs; rw [← List.map_id ct]
    exact List.map_congr_left (fun x hx => value_cell x (hlt x hx))
  have hbl : bo + ct.length ≤ buf'.length := by
    have := g2.1; have h' := g2.2.1; simp only [List.length_map] at this; omega
  have hml : ((range inB io n).map valueOf).length = n := by rw [List.length_map, range_length _ _ _ hin]
  have key' : ∀ outB : List Int, oo + n ≤ outB.length →
        ∃ out d', d.doFinal buf' bo ct.length outB oo = (.ok (n : Int), out, d') ∧ Written outB out oo ((range inB io n).map fun x => signedCell (valueOf x)) := by
    intro outB ho
    obtain ⟨out, d', k1, k2⟩ := (C62_decrypt alg halg key iv hiv d0 d hd0 hd _ ct (values_lt _) h1 buf' bo hbl hrange outB oo).1 (by omega)
    rw [hml] at k1
    refine ⟨out, d', k1, ?_⟩
    rw [List.map_map] at k2
    exact k2
  exact ⟨ct.length, buf', e', g1, h2, key', key' buf'⟩

/-- C62. Refusals: reading outside the input array raises ArrayIndexOutOfBoundsException, and lengths that are not multiples of 8, for
NOPAD encryption and for every decryption, raise ValueError; the output array is untouched. -/
theorem C62_refused (alg mode : Int) (hmode : mode = 1 ∨ mode = 2) (key iv : List Nat) (hiv : IsBlock iv)
    (c0 c : DESCipher) (h0 : Ready c0 alg mode key iv) (h : Finals c0 c) (inB : List Int) (io n : Nat) (outB : List Int) (oo : Int) :
    (inB.length < io + n → 0 < n → c.doFinal inB io n outB oo = (.error .arrayIndexOutOfBounds, outB, c)) ∧
    (io + n ≤ inB.length → n % 8 ≠ 0 → (mode = 1 ∨ alg = 1 ∨ alg = 5) → c.doFinal inB io n outB oo = (.error .valueError, outB, c)) := by
  have hr := ready_finals c0 c alg mode key iv h0 h
  obtain ⟨o, ho1, ho2⟩ := hr.obj
  unfold DESCipher.doFinal
  rw [if_neg (by simp [hr.init]), ho1]
  simp only
  constructor
  · intro h1 h2
    obtain ⟨l, hl⟩ := (data_copy inB io n).2 h2 h1
    rw [hl]
  · intro h1 h2 h3
    rw [(data_copy inB io n).1 h1]
    simp only
    rw [binary_values]
    have hml : ((range inB io n).map valueOf).length % 8 ≠ 0 := by rw [List.length_map, range_length _ _ _ h1]; exact h2
    have hx := values_lt (range inB io n)
    generalize (range inB io n).map valueOf = m at hml hx
    have hrun : DESCipher.runObj o (decide (c.base.mode = some MODE_ENCRYPT)) m = .error .valueError := by
      rw [hr.mode]
      have hpe : (alg = 1 ∨ alg = 5) → (Base.mk (if alg = 5 ∨ alg = 8 then 0 else 1) iv none (if alg = 5 ∨ alg = 1 then 1 else 2)).padData m none none = .error .valueError := by
        intro ha
        exact padData_none_err _ (by show (if alg = 5 ∨ alg = 1 then 1 else 2) = 1; rw [if_pos (by omega)]) rfl m hml
      unfold DESCipher.runObj
      rcases ho2 with ⟨k1, rfl⟩ | ⟨k1, t, rfl, k2⟩
      · simp only
        rcases hmode with rfl | rfl
        · rw [if_neg (by simp [MODE_ENCRYPT])]
          unfold Des.decrypt
          rw [crypt_short _ m hml]
        · rw [if_pos (by simp [MODE_ENCRYPT])]
          unfold Des.encrypt
          rw [hpe (by omega)]
      · simp only
        rcases hmode with rfl | rfl
        · rw [if_neg (by simp [MODE_ENCRYPT])]
          unfold Triple.decrypt
          simp only [bind, Except.bind, k2.base]
          by_cases hc : (if alg = 5 ∨ alg = 8 then 0 else 1) = CBC
          · rw [if_pos hc, setIVs_ok t iv hiv.1]
            simp only
            obtain ⟨bs, r, g1, g2, g3, g4⟩ := blocks_rest m hx hml
            rw [g4, decLoop_short _ hc _ _ _ bs g1 r (by omega) t k2 iv hiv]
          · rw [if_neg hc, crypt_short _ m hml]
        · rw [if_pos (by simp [MODE_ENCRYPT])]
          unfold Triple.encrypt
          simp only [bind, Except.bind, k2.base]
          rw [hpe (by omega)]
    rw [hrun]

/-- C62. A finding: an `init` call that fails (here because the IV does not have 8 bytes) on a cipher that is ready for encryption
with one key silently turns it into a cipher for decryption with that key. -/
theorem C62_failed_init_switches_mode (alg : Int) (key iv : List Nat) (c : DESCipher) (h : Ready c alg 2 key iv) (heap : KeyHeap) (r : Nat) (k : DESKey)
    (hk : heap r = .des k) (hi : k.initialized = true) (bArray : List Int) (bOff bLen : Int) (hl : bLen ≠ 8) :
    ∃ c', c.init heap (.key r) 1 bArray bOff bLen = (.error (.crypto 1), c') ∧ Ready c' alg 1 key iv := by
  have hinit : (KeyObj.des k).isInitialized = true := hi
  unfold DESCipher.init CipherBase.init
  simp only [hk, hinit]
  rw [if_neg (by simp), if_neg (by simp [MODE_DECRYPT])]
  simp only [hk]
  rw [if_pos hl]
  exact ⟨_, rfl, h.init, rfl, h.obj⟩

/-! A concrete case: an initialised two-key triple DES key, CBC with PKCS5 padding, the array as both input and output. -/
def demoHeap : KeyHeap := fun _ => .des ⟨true, 128, 3, some [1, 2, 3, 4, 5, 6, 7, 8, 9, 10, 11, 12, 13, 14, 15, 16]⟩

example : ∃ e d buf' e' out d', (DESCipher.new 4).init demoHeap (.key 0) 2 [0, 0, 0, 0, 0, 0, 0, 0, 7] 1 8 = (.ok (), e) ∧
    (DESCipher.new 4).init demoHeap (.key 0) 1 [0, 0, 0, 0, 0, 0, 0, 7] 0 8 = (.ok (), d) ∧
    e.doFinal [1, -1, 200, 0, 0, 0, 0, 0, 0, 0] 0 3 [1, -1, 200, 0, 0, 0, 0, 0, 0, 0] 1 = (.ok 8, buf', e') ∧
    d.doFinal buf' 1 8 buf' 2 = (.ok 3, out, d') ∧ Written buf' out 2 [1, -1, -56] := by
  have hv : IsBlock [0, 0, 0, 0, 0, 0, 0, 7] := ⟨rfl, by decide⟩
  obtain ⟨e, e1, e2⟩ := C62_init 4 [] demoHeap 0 _ _ 2 [0, 0, 0, 0, 0, 0, 0, 0, 7] 1 rfl rfl rfl (by decide) (.inr rfl) (by decide)
  obtain ⟨d, d1, d2⟩ := C62_init 4 [] demoHeap 0 _ _ 1 [0, 0, 0, 0, 0, 0, 0, 7] 0 rfl rfl rfl (by decide) (.inl rfl) (by decide)
  have v1 : (range [0, 0, 0, 0, 0, 0, 0, 0, 7] 1 8).map valueOf = [0, 0, 0, 0, 0, 0, 0, 7] := by decide
  have v2 : (range [0, 0, 0, 0, 0, 0, 0, 7] 0 8).map valueOf = [0, 0, 0, 0, 0, 0, 0, 7] := by decide
  rw [v1] at e2
  rw [v2] at d2
  obtain ⟨N, buf', e', h1, h2, _, h3⟩ := C62_roundtrip 4 (by decide) _ _ hv e e d d e2 .new d2 .new [1, -1, 200, 0, 0, 0, 0, 0, 0, 0] 0 3 (by decide) (by decide)
    [1, -1, 200, 0, 0, 0, 0, 0, 0, 0] 1 (by decide) 2
  have hN : N = 8 := h2
  subst hN
  have hlen : buf'.length = 10 := by
    obtain ⟨ct, _, hct, k3⟩ := C62_encrypt 4 (by decide) _ _ hv e e e2 .new [1, -1, 200, 0, 0, 0, 0, 0, 0, 0] 0 3 (by decide) (by decide)
    have hct' : ct.length = 8 := hct
    obtain ⟨b', c', k4, k5⟩ := (k3 [1, -1, 200, 0, 0, 0, 0, 0, 0, 0] 1).1 (by rw [hct']; decide)
    rw [h1] at k4
    injection k4 with _ k4
    injection k4 with k4 _
    rw [k4]
    exact k5.2.1
  obtain ⟨out, d', k1, k2⟩ := h3 (by omega)
  exact ⟨e, d, buf', e', out, d', e1, d1, h1, k1, k2⟩

end Verif.Props
