import Verif.Props.DES
/-! C61: Triple DES. -/
namespace Verif.Props
open Verif.Py Verif.Model Verif.Model.PyDes Verif.Spec.DES

/-- The objects that come out of a history of calls of encrypt and decrypt (with any data, pad and padmode, in any order)
on the object `t0`. -/
inductive Used (t0 : Triple) : Triple → Prop
  | new : Used t0 t0
  | encrypt {t t' m r pad padmode} : Used t0 t → t.encrypt m pad padmode = .ok (r, t') → Used t0 t'
  | decrypt {t t' m r pad padmode} : Used t0 t → t.decrypt m pad padmode = .ok (r, t') → Used t0 t'

/-- The three subkey lists and the settings; the IVs of the inner objects, which change, are left open. -/
structure Like (t : Triple) (b : Base) (k1 k2 k3 : List Nat) : Prop where
  base : t.base = b
  kn1 : t.key1.Kn = createSubKeys k1
  kn2 : t.key2.Kn = createSubKeys k2
  kn3 : t.key3.Kn = createSubKeys k3
  m1 : t.key1.base.mode = b.mode
  m2 : t.key2.base.mode = b.mode
  m3 : t.key3.base.mode = b.mode

theorem desSetIV_cases (d : Des) (iv : List Nat) :
    (iv.length = 8 → d.setIV iv = .ok { d with base := { d.base with iv := iv } }) ∧ (iv.length ≠ 8 → d.setIV iv = .error .valueError) := by
  unfold Des.setIV Base.setIV
  constructor
  · intro h
    rw [if_neg (by rintro (h' | h'); · rw [h'] at h; simp at h
                   · exact h' h)]
  · intro h
    rw [if_pos (.inr h)]

/-- The object with the IV `v` in all three inner objects. -/
def withIVs (t : Triple) (v : List Nat) : Triple :=
  ⟨t.base, ⟨⟨t.key1.base.mode, v, t.key1.base.padding, t.key1.base.padmode⟩, t.key1.Kn⟩,
    ⟨⟨t.key2.base.mode, v, t.key2.base.padding, t.key2.base.padmode⟩, t.key2.Kn⟩,
    ⟨⟨t.key3.base.mode, v, t.key3.base.padding, t.key3.base.padmode⟩, t.key3.Kn⟩⟩

theorem setIVs_ok (t : Triple) (iv : List Nat) (h : iv.length = 8) : t.setIVs iv = .ok (withIVs t iv) := by
  unfold Triple.setIVs
  rw [(desSetIV_cases t.key1 iv).1 h, (desSetIV_cases t.key2 iv).1 h, (desSetIV_cases t.key3 iv).1 h]
  rfl

theorem setIVs_err (t : Triple) (iv : List Nat) (h : iv.length ≠ 8) : t.setIVs iv = .error .valueError := by
  unfold Triple.setIVs
  rw [(desSetIV_cases t.key1 iv).2 h]
  rfl

theorem setIVs_like {t t' : Triple} {b : Base} {k1 k2 k3 iv : List Nat} (h : Like t b k1 k2 k3) (e : t.setIVs iv = .ok t') : Like t' b k1 k2 k3 := by
  by_cases hl : iv.length = 8
  · rw [setIVs_ok t iv hl] at e
    injection e with e
    subst e
    exact ⟨h.base, h.kn1, h.kn2, h.kn3, h.m1, h.m2, h.m3⟩
  · rw [setIVs_err t iv hl] at e; cases e

theorem encLoop_like (b : Base) (k1 k2 k3 : List Nat) (bs : List (List Nat)) (t : Triple) (h : Like t b k1 k2 k3) (r : List Nat) (t' : Triple)
    (e : t.encLoop bs = .ok (r, t')) : Like t' b k1 k2 k3 := by
  induction bs generalizing t r t' with
  | nil => unfold Triple.encLoop at e; injection e with e; injection e with _ e; subst e; exact h
  | cons x xs ih =>
    unfold Triple.encLoop at e
    simp only [bind, Except.bind, pure, Except.pure] at e
    split at e
    · cases e
    · split at e
      · cases e
      · split at e
        · cases e
        · split at e
          · cases e
          · rename_i he
            split at e
            · cases e
            · rename_i v hv
              injection e with e
              injection e with _ e
              subst e
              exact ih _ (setIVs_like h he) _ _ hv

theorem decLoop_like (b : Base) (k1 k2 k3 : List Nat) (bs : List (List Nat)) (t : Triple) (h : Like t b k1 k2 k3) (r : List Nat) (t' : Triple)
    (e : t.decLoop bs = .ok (r, t')) : Like t' b k1 k2 k3 := by
  induction bs generalizing t r t' with
  | nil => unfold Triple.decLoop at e; injection e with e; injection e with _ e; subst e; exact h
  | cons x xs ih =>
    unfold Triple.decLoop at e
    simp only [bind, Except.bind, pure, Except.pure] at e
    split at e
    · cases e
    · split at e
      · cases e
      · split at e
        · cases e
        · split at e
          · cases e
          · rename_i he
            split at e
            · cases e
            · rename_i v hv
              injection e with e
              injection e with _ e
              subst e
              exact ih _ (setIVs_like h he) _ _ hv

theorem encrypt_like {t t' : Triple} {b : Base} {k1 k2 k3 m r : List Nat} {pad padmode : Option Nat} (h : Like t b k1 k2 k3)
    (e : t.encrypt m pad padmode = .ok (r, t')) : Like t' b k1 k2 k3 := by
  unfold Triple.encrypt at e
  simp only [bind, Except.bind, pure, Except.pure] at e
  split at e
  · cases e
  · split at e
    · split at e
      · cases e
      · rename_i he
        exact encLoop_like b k1 k2 k3 _ _ (setIVs_like h he) _ _ e
    · split at e
      · cases e
      · split at e
        · cases e
        · split at e
          · cases e
          · injection e with e; injection e with _ e; subst e; exact h

theorem decrypt_like {t t' : Triple} {b : Base} {k1 k2 k3 m r : List Nat} {pad padmode : Option Nat} (h : Like t b k1 k2 k3)
    (e : t.decrypt m pad padmode = .ok (r, t')) : Like t' b k1 k2 k3 := by
  unfold Triple.decrypt at e
  simp only [bind, Except.bind, pure, Except.pure] at e
  split at e
  · split at e
    · cases e
    · rename_i he
      split at e
      · cases e
      · rename_i v hv
        split at e
        · cases e
        · injection e with e; injection e with _ e; subst e
          exact decLoop_like b k1 k2 k3 _ _ (setIVs_like h he) _ _ hv
  · split at e
    · cases e
    · split at e
      · cases e
      · split at e
        · cases e
        · split at e
          · cases e
          · injection e with e; injection e with _ e; subst e; exact h

theorem used_like {t0 t : Triple} {b : Base} {k1 k2 k3 : List Nat} (h0 : Like t0 b k1 k2 k3) (h : Used t0 t) : Like t b k1 k2 k3 := by
  induction h with
  | new => exact h0
  | encrypt _ e ih => exact encrypt_like ih e
  | decrypt _ e ih => exact decrypt_like ih e

/-! ### What the loops compute -/

theorem encipher3_block (k1 k2 k3 b : List Nat) : IsBlock (encipher3 k1 k2 k3 b) := encipher_block _ _
theorem decipher3_block (k1 k2 k3 b : List Nat) : IsBlock (decipher3 k1 k2 k3 b) := decipher_block _ _

theorem crypt1_enc (d : Des) (k v x : List Nat) (hm : d.base.mode = CBC) (hk : d.Kn = createSubKeys k) (hv : IsBlock v) (hx : x.length = 8) :
    (Des.mk ⟨d.base.mode, v, d.base.padding, d.base.padmode⟩ d.Kn).crypt x true = .ok (encipher k (xorBytes x v)) := by
  have := crypt_cbc_enc (Des.mk ⟨d.base.mode, v, d.base.padding, d.base.padmode⟩ d.Kn) hm (iv_block_ne v hv) [x] (by intro b h; simp at h; subst h; exact hx)
  simp only [List.flatten_cons, List.flatten_nil, List.append_nil, cbcEncrypt] at this
  rw [this, hk, enc_eq]

theorem crypt1_dec (d : Des) (k v x : List Nat) (hm : d.base.mode = CBC) (hk : d.Kn = createSubKeys k) (hv : IsBlock v) (hx : IsBlock x) :
    (Des.mk ⟨d.base.mode, v, d.base.padding, d.base.padmode⟩ d.Kn).crypt x false = .ok (xorBytes (decipher k x) v) := by
  have := crypt_cbc_dec (Des.mk ⟨d.base.mode, v, d.base.padding, d.base.padmode⟩ d.Kn) hm hv [x] (by intro b h; simp at h; subst h; exact hx)
  simp only [List.flatten_cons, List.flatten_nil, List.append_nil, cbcDecrypt] at this
  rw [this, hk, dec_eq]

theorem encLoop_eq (b : Base) (hm : b.mode = CBC) (k1 k2 k3 : List Nat) (bs : List (List Nat)) (hb : ∀ x ∈ bs, IsBlock x) (t : Triple) (h : Like t b k1 k2 k3)
    (v : List Nat) (hv : IsBlock v) : ∃ t', (withIVs t v).encLoop bs = .ok ((cbcEncrypt (encipher3 k1 k2 k3) v bs).flatten, t') := by
  induction bs generalizing v with
  | nil => exact ⟨_, rfl⟩
  | cons x xs ih =>
    have hx := hb x (by simp)
    have hE : IsBlock (encipher3 k1 k2 k3 (xorBytes x v)) := encipher3_block _ _ _ _
    obtain ⟨t', ht'⟩ := ih (fun c hc => hb c (by simp [hc])) _ hE
    refine ⟨t', ?_⟩
    unfold Triple.encLoop
    have e1 : (withIVs t v).key1.crypt x true = .ok (encipher k1 (xorBytes x v)) := crypt1_enc t.key1 k1 v x (h.m1.trans hm) h.kn1 hv hx.1
    have e2 : (withIVs t v).key2.crypt (encipher k1 (xorBytes x v)) false = .ok (xorBytes (decipher k2 (encipher k1 (xorBytes x v))) v) :=
      crypt1_dec t.key2 k2 v _ (h.m2.trans hm) h.kn2 hv (encipher_block _ _)
    have hd := decipher_block k2 (encipher k1 (xorBytes x v))
    have e3 : (withIVs t v).key3.crypt (xorBytes (decipher k2 (encipher k1 (xorBytes x v))) v) true = .ok (encipher3 k1 k2 k3 (xorBytes x v)) := by
      have := crypt1_enc t.key3 k3 v (xorBytes (decipher k2 (encipher k1 (xorBytes x v))) v) (h.m3.trans hm) h.kn3 hv (xorBytes_block _ _ hd hv).1
      rw [xorBytes_cancel _ _ (by rw [hd.1, hv.1])] at this
      exact this
    have e4 : (withIVs t v).setIVs (encipher3 k1 k2 k3 (xorBytes x v)) = .ok (withIVs t (encipher3 k1 k2 k3 (xorBytes x v))) := setIVs_ok _ _ hE.1
    simp only [bind, Except.bind, pure, Except.pure, e1, e2, e3, e4, ht']
    rfl

theorem decLoop_eq (b : Base) (hm : b.mode = CBC) (k1 k2 k3 : List Nat) (bs : List (List Nat)) (hb : ∀ x ∈ bs, IsBlock x) (t : Triple) (h : Like t b k1 k2 k3)
    (v : List Nat) (hv : IsBlock v) : ∃ t', (withIVs t v).decLoop bs = .ok ((cbcDecrypt (decipher3 k1 k2 k3) v bs).flatten, t') := by
  induction bs generalizing v with
  | nil => exact ⟨_, rfl⟩
  | cons x xs ih =>
    have hx := hb x (by simp)
    obtain ⟨t', ht'⟩ := ih (fun c hc => hb c (by simp [hc])) _ hx
    refine ⟨t', ?_⟩
    unfold Triple.decLoop
    have e1 : (withIVs t v).key3.crypt x false = .ok (xorBytes (decipher k3 x) v) := crypt1_dec t.key3 k3 v x (h.m3.trans hm) h.kn3 hv hx
    have hd := decipher_block k3 x
    have e2 : (withIVs t v).key2.crypt (xorBytes (decipher k3 x) v) true = .ok (encipher k2 (decipher k3 x)) := by
      have := crypt1_enc t.key2 k2 v (xorBytes (decipher k3 x) v) (h.m2.trans hm) h.kn2 hv (xorBytes_block _ _ hd hv).1
      rw [xorBytes_cancel _ _ (by rw [hd.1, hv.1])] at this
      exact this
    have e3 : (withIVs t v).key1.crypt (encipher k2 (decipher k3 x)) false = .ok (xorBytes (decipher3 k1 k2 k3 x) v) :=
      crypt1_dec t.key1 k1 v _ (h.m1.trans hm) h.kn1 hv (encipher_block _ _)
    have e4 : (withIVs t v).setIVs x = .ok (withIVs t x) := setIVs_ok _ _ hx.1
    simp only [bind, Except.bind, pure, Except.pure, e1, e2, e3, e4, ht']
    rfl

/-- The three passes of the code over data of whole blocks, encrypting. -/
theorem like_encrypt (t : Triple) (b : Base) (k1 k2 k3 : List Nat) (h : Like t b k1 k2 k3) (bs : List (List Nat)) (hb : ∀ x ∈ bs, IsBlock x)
    (m : List Nat) (pad padmode : Option Nat) (hp : b.padData m pad padmode = .ok bs.flatten) :
    (b.mode ≠ CBC → ∃ t', t.encrypt m pad padmode = .ok ((ecb (encipher3 k1 k2 k3) bs).flatten, t')) ∧
    (b.mode = CBC → IsBlock b.iv → ∃ t', t.encrypt m pad padmode = .ok ((cbcEncrypt (encipher3 k1 k2 k3) b.iv bs).flatten, t')) := by
  constructor
  · intro hm
    refine ⟨t, ?_⟩
    unfold Triple.encrypt
    simp only [bind, Except.bind, pure, Except.pure, h.base, hp]
    rw [if_neg hm]
    obtain ⟨g1, _⟩ := ecb_blocks (encipher k1) (fun x _ => encipher_block k1 x) bs hb
    obtain ⟨g2, _⟩ := ecb_blocks (decipher k2) (fun x _ => decipher_block k2 x) _ g1
    have e1 := crypt_ecb t.key1 (by rw [h.m1]; exact hm) true bs (fun b h => (hb b h).1)
    have e2 := crypt_ecb t.key2 (by rw [h.m2]; exact hm) false _ (fun b h => (g1 b h).1)
    have e3 := crypt_ecb t.key3 (by rw [h.m3]; exact hm) true _ (fun b h => (g2 b h).1)
    rw [h.kn1, enc_eq] at e1
    rw [h.kn2, dec_eq] at e2
    rw [h.kn3, enc_eq] at e3
    have e4 : (ecb (encipher k3) (ecb (decipher k2) (ecb (encipher k1) bs))) = ecb (encipher3 k1 k2 k3) bs := by
      simp [ecb, encipher3, List.map_map, Function.comp_def]
    rw [e4] at e3
    simp only [e1, e2, e3]
  · intro hm hiv
    obtain ⟨t', ht'⟩ := encLoop_eq b hm k1 k2 k3 bs hb t h b.iv hiv
    refine ⟨t', ?_⟩
    unfold Triple.encrypt
    simp only [bind, Except.bind, pure, Except.pure, h.base, hp]
    rw [if_pos hm, setIVs_ok t b.iv hiv.1]
    simp only
    rw [blocks_flatten bs (fun b h => (hb b h).1)]
    exact ht'

theorem like_decrypt (t : Triple) (b : Base) (k1 k2 k3 : List Nat) (h : Like t b k1 k2 k3) (bs : List (List Nat)) (hb : ∀ x ∈ bs, IsBlock x)
    (pad padmode : Option Nat) :
    (b.mode ≠ CBC → ∀ r, b.unpadData (ecb (decipher3 k1 k2 k3) bs).flatten pad padmode = .ok r → ∃ t', t.decrypt bs.flatten pad padmode = .ok (r, t')) ∧
    (b.mode = CBC → IsBlock b.iv → ∀ r, b.unpadData (cbcDecrypt (decipher3 k1 k2 k3) b.iv bs).flatten pad padmode = .ok r →
      ∃ t', t.decrypt bs.flatten pad padmode = .ok (r, t')) := by
  constructor
  · intro hm r hr
    refine ⟨t, ?_⟩
    unfold Triple.decrypt
    rw [h.base, if_neg hm]
    obtain ⟨g1, _⟩ := ecb_blocks (decipher k3) (fun x _ => decipher_block k3 x) bs hb
    obtain ⟨g2, _⟩ := ecb_blocks (encipher k2) (fun x _ => encipher_block k2 x) _ g1
    have e1 := crypt_ecb t.key3 (by rw [h.m3]; exact hm) false bs (fun b h => (hb b h).1)
    have e2 := crypt_ecb t.key2 (by rw [h.m2]; exact hm) true _ (fun b h => (g1 b h).1)
    have e3 := crypt_ecb t.key1 (by rw [h.m1]; exact hm) false _ (fun b h => (g2 b h).1)
    rw [h.kn3, dec_eq] at e1
    rw [h.kn2, enc_eq] at e2
    rw [h.kn1, dec_eq] at e3
    have e4 : (ecb (decipher k1) (ecb (encipher k2) (ecb (decipher k3) bs))) = ecb (decipher3 k1 k2 k3) bs := by
      simp [ecb, decipher3, List.map_map, Function.comp_def]
    rw [e4] at e3
    simp only [bind, Except.bind, pure, Except.pure, e1, e2, e3, hr]
  · intro hm hiv r hr
    obtain ⟨t', ht'⟩ := decLoop_eq b hm k1 k2 k3 bs hb t h b.iv hiv
    refine ⟨t', ?_⟩
    have hl : Like t' b k1 k2 k3 := decLoop_like b k1 k2 k3 bs (withIVs t b.iv) ⟨h.base, h.kn1, h.kn2, h.kn3, h.m1, h.m2, h.m3⟩ _ _ ht'
    unfold Triple.decrypt
    simp only [bind, Except.bind, pure, Except.pure, h.base]
    rw [if_pos hm, setIVs_ok t b.iv hiv.1]
    simp only
    rw [blocks_flatten bs (fun b h => (hb b h).1)]
    rw [ht']
    simp only
    rw [hl.base, hr]

/-! ### The constructor -/

/-- The third key: a 16-byte key is used as K1 K2 K1. -/
def third (key : List Nat) : List Nat := if key.length = 16 then key.take 8 else key.drop 16

/-- C61. The constructor takes keys of 16 and 24 bytes only, and an IV of 8 bytes. -/
theorem C61_constructor (key : List Nat) (mode : Nat) (iv : List Nat) (padmode : Nat) :
    (key.length ≠ 16 ∧ key.length ≠ 24 → Triple.new key mode iv none padmode = .error .valueError) ∧
    (iv ≠ [] ∧ iv.length ≠ 8 → Triple.new key mode iv none padmode = .error .valueError) ∧
    (key.length = 16 ∨ key.length = 24 → iv.length = 8 → ∃ t, Triple.new key mode iv none padmode = .ok t) := by
  refine ⟨?_, ?_, ?_⟩
  · intro h
    unfold Triple.new Base.new
    rw [if_neg (by simp)]
    by_cases hi : iv ≠ [] ∧ iv.length ≠ 8
    · rw [if_pos hi]
    · rw [if_neg hi]
      simp only
      unfold Triple.ofBase
      rw [if_pos ⟨h.2, h.1⟩]
  · intro h
    unfold Triple.new Base.new
    rw [if_neg (by simp), if_pos h]
  · intro h hi
    exact ⟨_, (tripleNew_eq key mode padmode iv hi).1 h⟩

/-- C61. CBC without an IV takes the first eight bytes of the key as the IV. -/
theorem C61_default_iv (key : List Nat) (hk : key.length = 16 ∨ key.length = 24) (padmode : Nat) :
    Triple.new key 1 [] none padmode = Triple.new key 1 (key.take 8) none padmode := by
  have hl : (key.take 8).length = 8 := by simp; omega
  have hne : key.take 8 ≠ [] := by intro h; rw [h] at hl; simp at hl
  unfold Triple.new Base.new
  rw [if_neg (by simp), if_neg (by simp), if_neg (by simp), if_neg (fun h => h.2 hl)]
  simp only
  unfold Triple.ofBase
  simp only [CBC]
  have c1 : (True ∧ True) := ⟨trivial, trivial⟩
  have c2 : ¬ (True ∧ key.take 8 = []) := fun h => hne h.2
  simp only [if_pos c1, if_neg c2]

theorem triple_like (key : List Nat) (mode : Nat) (iv : List Nat) (padmode : Nat) (hk : key.length = 16 ∨ key.length = 24) (hiv : iv.length = 8) (t0 t : Triple)
    (h0 : Triple.new key mode iv none padmode = .ok t0) (h : Used t0 t) :
    Like t ⟨mode, iv, none, padmode⟩ (key.take 8) ((key.drop 8).take 8) (third key) := by
  apply used_like _ h
  rw [(tripleNew_eq key mode padmode iv hiv).1 hk] at h0
  injection h0 with h0
  subst h0
  exact ⟨rfl, rfl, rfl, rfl, rfl, rfl, rfl⟩

/-- C61. ECB without padding: after any history of calls, every block goes through encipher-decipher-encipher (EDE) with the three
keys, and decryption through the inverse. -/
theorem C61_ecb (key iv : List Nat) (hk : key.length = 16 ∨ key.length = 24) (hiv : iv.length = 8) (t0 t : Triple)
    (h0 : Triple.new key 0 iv none 1 = .ok t0) (h : Used t0 t) (bs : List (List Nat)) (hb : ∀ x ∈ bs, IsBlock x) :
    (∃ t', t.encrypt bs.flatten none none = .ok ((ecb (encipher3 (key.take 8) ((key.drop 8).take 8) (third key)) bs).flatten, t')) ∧
    (∃ t', t.decrypt bs.flatten none none = .ok ((ecb (decipher3 (key.take 8) ((key.drop 8).take 8) (third key)) bs).flatten, t')) := by
  have hl := triple_like key 0 iv 1 hk hiv t0 t h0 h
  exact ⟨(like_encrypt t _ _ _ _ hl bs hb _ none none (padData_none _ rfl _ (flatten_mod8 bs hb))).1 (by show (0 : Nat) ≠ 1; decide),
    (like_decrypt t _ _ _ _ hl bs hb none none).1 (by show (0 : Nat) ≠ 1; decide) _ (unpadData_none _ rfl rfl _)⟩

/-- C61. CBC without padding: after any history of calls, the chaining is around the whole EDE (the chaining of the inner objects
cancels), always starting from the IV given to the constructor. -/
theorem C61_cbc (key iv : List Nat) (hk : key.length = 16 ∨ key.length = 24) (hiv : IsBlock iv) (t0 t : Triple)
    (h0 : Triple.new key 1 iv none 1 = .ok t0) (h : Used t0 t) (bs : List (List Nat)) (hb : ∀ x ∈ bs, IsBlock x) :
    (∃ t', t.encrypt bs.flatten none none = .ok ((cbcEncrypt (encipher3 (key.take 8) ((key.drop 8).take 8) (third key)) iv bs).flatten, t')) ∧
    (∃ t', t.decrypt bs.flatten none none = .ok ((cbcDecrypt (decipher3 (key.take 8) ((key.drop 8).take 8) (third key)) iv bs).flatten, t')) := by
  have hl := triple_like key 1 iv 1 hk hiv.1 t0 t h0 h
  exact ⟨(like_encrypt t _ _ _ _ hl bs hb _ none none (padData_none _ rfl _ (flatten_mod8 bs hb))).2 rfl hiv,
    (like_decrypt t _ _ _ _ hl bs hb none none).2 rfl hiv _ (unpadData_none _ rfl rfl _)⟩

/-- C61. Triple DES inverts. -/
theorem C61_standard (k1 k2 k3 b : List Nat) (hb : IsBlock b) :
    decipher3 k1 k2 k3 (encipher3 k1 k2 k3 b) = b ∧ encipher3 k1 k2 k3 (decipher3 k1 k2 k3 b) = b := by
  unfold decipher3 encipher3
  constructor
  · rw [(C57_standard k3 _ (decipher_block _ _)).1, (C57_standard k2 _ (encipher_block _ _)).2, (C57_standard k1 b hb).1]
  · rw [(C57_standard k1 _ (encipher_block _ _)).2, (C57_standard k2 _ (decipher_block _ _)).1, (C57_standard k3 b hb).2]

/-- C61. With all three keys equal, triple DES is DES. -/
theorem C61_single (k b : List Nat) (hb : IsBlock b) : encipher3 k k k b = encipher k b ∧ decipher3 k k k b = decipher k b := by
  unfold decipher3 encipher3
  exact ⟨by rw [(C57_standard k b hb).1], by rw [(C57_standard k b hb).2]⟩

theorem like_roundtrip (t : Triple) (b : Base) (k1 k2 k3 : List Nat) (h : Like t b k1 k2 k3) (hmode : b.mode = CBC → IsBlock b.iv)
    (m m' : List Nat) (hm : m'.length % 8 = 0) (hx : ∀ x ∈ m', x < 256) (hp : b.padData m none none = .ok m') (hu : b.unpadData m' none none = .ok m) :
    ∃ c t', t.encrypt m none none = .ok (c, t') ∧ c.length = m'.length ∧ (∀ x ∈ c, x < 256) ∧
      (∀ t'', Like t'' b k1 k2 k3 → ∃ t3, t''.decrypt c none none = .ok (m, t3)) := by
  obtain ⟨bs, rfl, hb⟩ := exists_blocks m' hm hx
  have hE : ∀ b, IsBlock b → IsBlock (encipher3 k1 k2 k3 b) := fun b _ => encipher3_block _ _ _ b
  have hi : ∀ b, IsBlock b → decipher3 k1 k2 k3 (encipher3 k1 k2 k3 b) = b := fun b hb => (C61_standard k1 k2 k3 b hb).1
  have hl := flatten_length8 bs (fun b h => (hb b h).1)
  by_cases hc : b.mode = CBC
  · have hiv := hmode hc
    obtain ⟨g1, g2⟩ := cbcEncrypt_blocks _ hE b.iv hiv bs hb
    obtain ⟨t', ht'⟩ := (like_encrypt t b k1 k2 k3 h bs hb m none none hp).2 hc hiv
    refine ⟨_, t', ht', ?_, flatten_bytes _ g1, ?_⟩
    · rw [flatten_length8 _ (fun b h => (g1 b h).1), g2, hl]
    · intro t'' hl''
      refine (like_decrypt t'' b k1 k2 k3 hl'' _ g1 none none).2 hc hiv m ?_
      rw [cbc_inverse _ _ hi hE _ hiv bs hb]
      exact hu
  · obtain ⟨g1, g2⟩ := ecb_blocks _ hE bs hb
    obtain ⟨t', ht'⟩ := (like_encrypt t b k1 k2 k3 h bs hb m none none hp).1 hc
    refine ⟨_, t', ht', ?_, flatten_bytes _ g1, ?_⟩
    · rw [flatten_length8 _ (fun b h => (g1 b h).1), g2, hl]
    · intro t'' hl''
      refine (like_decrypt t'' b k1 k2 k3 hl'' _ g1 none none).1 hc m ?_
      rw [ecb_inverse _ _ hi bs hb]
      exact hu

/-- C61. Without padding, for every key, IV, mode and message of whole blocks, and after any history of calls: the ciphertext
has the length of the message, and decrypting it - on the same object, later, or on any other object used in any way after
being made from the same key and IV - gives the message back. -/
theorem C61_roundtrip (key iv : List Nat) (mode : Nat) (hk : key.length = 16 ∨ key.length = 24) (hiv : IsBlock iv)
    (t0 t : Triple) (h0 : Triple.new key mode iv none 1 = .ok t0) (h : Used t0 t) (m : List Nat) (hm : m.length % 8 = 0) (hx : ∀ x ∈ m, x < 256) :
    ∃ c t', t.encrypt m none none = .ok (c, t') ∧ c.length = m.length ∧ (∀ x ∈ c, x < 256) ∧
      ∀ t'', Used t0 t'' → ∃ t3, t''.decrypt c none none = .ok (m, t3) := by
  obtain ⟨c, t', e1, e2, e3, e4⟩ := like_roundtrip t _ _ _ _ (triple_like key mode iv 1 hk hiv.1 t0 t h0 h) (fun _ => hiv) m m hm hx
    (padData_none _ rfl _ hm) (unpadData_none _ rfl rfl _)
  exact ⟨c, t', e1, e2, e3, fun t'' h'' => e4 t'' (triple_like key mode iv 1 hk hiv.1 t0 t'' h0 h'')⟩

/-- C61. With PKCS5 padding the same for messages of every length. -/
theorem C61_pkcs5 (key iv : List Nat) (mode : Nat) (hk : key.length = 16 ∨ key.length = 24) (hiv : IsBlock iv)
    (t0 t : Triple) (h0 : Triple.new key mode iv none 2 = .ok t0) (h : Used t0 t) (m : List Nat) (hx : ∀ x ∈ m, x < 256) :
    ∃ c t', t.encrypt m none none = .ok (c, t') ∧ c.length = (m.length / 8 + 1) * 8 ∧ (∀ x ∈ c, x < 256) ∧
      ∀ t'', Used t0 t'' → ∃ t3, t''.decrypt c none none = .ok (m, t3) := by
  obtain ⟨m', p1, p2, p3, p4⟩ := unpad_pad_pkcs5 ⟨mode, iv, none, 2⟩ ⟨mode, iv, none, 2⟩ rfl rfl m
  have hm' : ∀ x ∈ m', x < 256 := by
    intro x hx'
    rcases p3 x hx' with h | h
    · exact hx x h
    · omega
  obtain ⟨c, t', e1, e2, e3, e4⟩ := like_roundtrip t _ _ _ _ (triple_like key mode iv 2 hk hiv.1 t0 t h0 h) (fun _ => hiv) m m' (by omega) hm' p1 p4
  exact ⟨c, t', e1, by omega, e3, fun t'' h'' => e4 t'' (triple_like key mode iv 2 hk hiv.1 t0 t'' h0 h'')⟩

/-- Every byte string is a sequence of blocks and a shorter rest. -/
theorem blocks_rest (m : List Nat) (hx : ∀ x ∈ m, x < 256) (hm : m.length % 8 ≠ 0) :
    ∃ bs r, (∀ b ∈ bs, IsBlock b) ∧ 0 < r.length ∧ r.length < 8 ∧ blocks m = bs ++ [r] := by
  have : ∀ n (k : Nat) (m : List Nat), n ≤ k → n = m.length → (∀ x ∈ m, x < 256) → m.length % 8 ≠ 0 →
      ∃ bs r, (∀ b ∈ bs, IsBlock b) ∧ 0 < r.length ∧ r.length < 8 ∧ blocksF k m = bs ++ [r] := by
    intro n
    induction n using Nat.strongRecOn with
    | ind n ih =>
      intro k m hk hn hx hm
      have h0 : 0 < m.length := by omega
      obtain ⟨k', rfl⟩ : ∃ k', k = k' + 1 := ⟨k - 1, by omega⟩
      have hne : m ≠ [] := List.length_pos_iff.1 h0
      unfold blocksF
      rw [if_neg hne]
      by_cases h8 : m.length < 8
      · refine ⟨[], m, by simp, h0, h8, ?_⟩
        rw [List.take_of_length_le (by omega), List.drop_eq_nil_of_le (by omega)]
        cases k' <;> rfl
      · obtain ⟨bs, r, g1, g2, g3, g4⟩ := ih (n - 8) (by omega) k' (m.drop 8) (by omega) (by simp; omega) (fun x h => hx x (List.mem_of_mem_drop h)) (by simp; omega)
        refine ⟨m.take 8 :: bs, r, ?_, g2, g3, by rw [g4]; rfl⟩
        intro b hb
        rcases List.mem_cons.1 hb with rfl | hb
        · exact ⟨by simp; omega, fun x h => hx x (List.mem_of_mem_take h)⟩
        · exact g1 b hb
  exact this m.length m.length m (Nat.le_refl _) rfl hx hm

theorem crypt_short (d : Des) (x : List Nat) (h : x.length % 8 ≠ 0) : d.crypt x false = .error .valueError := by
  unfold Des.crypt
  rw [if_neg (by rintro rfl; simp at h)]
  simp only
  rw [if_pos h, if_pos (by simp)]

theorem decLoop_short (b : Base) (hm : b.mode = CBC) (k1 k2 k3 : List Nat) (bs : List (List Nat)) (hb : ∀ x ∈ bs, IsBlock x) (r : List Nat) (hr : r.length % 8 ≠ 0)
    (t : Triple) (h : Like t b k1 k2 k3) (v : List Nat) (hv : IsBlock v) : (withIVs t v).decLoop (bs ++ [r]) = .error .valueError := by
  induction bs generalizing v with
  | nil =>
    show (withIVs t v).decLoop [r] = _
    unfold Triple.decLoop
    rw [crypt_short _ r hr]
    rfl
  | cons x xs ih =>
    have hx := hb x (by simp)
    have hi := ih (fun c hc => hb c (by simp [hc])) _ hx
    show (withIVs t v).decLoop (x :: (xs ++ [r])) = _
    unfold Triple.decLoop
    have e1 : (withIVs t v).key3.crypt x false = .ok (xorBytes (decipher k3 x) v) := crypt1_dec t.key3 k3 v x (h.m3.trans hm) h.kn3 hv hx
    have hd := decipher_block k3 x
    have e2 : (withIVs t v).key2.crypt (xorBytes (decipher k3 x) v) true = .ok (encipher k2 (decipher k3 x)) := by
      have := crypt1_enc t.key2 k2 v (xorBytes (decipher k3 x) v) (h.m2.trans hm) h.kn2 hv (xorBytes_block _ _ hd hv).1
      rw [xorBytes_cancel _ _ (by rw [hd.1, hv.1])] at this
      exact this
    have e3 : (withIVs t v).key1.crypt (encipher k2 (decipher k3 x)) false = .ok (xorBytes (decipher3 k1 k2 k3 x) v) :=
      crypt1_dec t.key1 k1 v _ (h.m1.trans hm) h.kn1 hv (encipher_block _ _)
    have e4 : (withIVs t v).setIVs x = .ok (withIVs t x) := setIVs_ok _ _ hx.1
    simp only [bind, Except.bind, pure, Except.pure, e1, e2, e3, e4, hi]

/-- C61. Without padding, messages of other lengths are refused with ValueError, in ECB and in CBC, for encryption and decryption,
after any history. -/
theorem C61_other_lengths (key iv : List Nat) (mode : Nat) (hk : key.length = 16 ∨ key.length = 24) (hiv : IsBlock iv)
    (t0 t : Triple) (h0 : Triple.new key mode iv none 1 = .ok t0) (h : Used t0 t) (m : List Nat) (hm : m.length % 8 ≠ 0) (hx : ∀ x ∈ m, x < 256) :
    t.encrypt m none none = .error .valueError ∧ t.decrypt m none none = .error .valueError := by
  have hl := triple_like key mode iv 1 hk hiv.1 t0 t h0 h
  constructor
  · unfold Triple.encrypt
    simp only [bind, Except.bind, hl.base]
    rw [padData_none_err _ rfl rfl m hm]
  · unfold Triple.decrypt
    simp only [bind, Except.bind, hl.base]
    by_cases hc : mode = CBC
    · rw [if_pos hc, setIVs_ok t iv hiv.1]
      simp only
      obtain ⟨bs, r, g1, g2, g3, g4⟩ := blocks_rest m hx hm
      rw [g4, decLoop_short _ hc _ _ _ bs g1 r (by omega) t hl iv hiv]
    · rw [if_neg hc, crypt_short _ m hm]

/-! Objects with a history exist: for instance after encrypting three bytes. -/
example (key iv : List Nat) (hk : key.length = 24) (hiv : IsBlock iv) : ∃ t0 t c, Triple.new key 1 iv none 2 = .ok t0 ∧
    t0.encrypt [1, 2, 3] none none = .ok (c, t) ∧ Used t0 t ∧ ∃ t3, t.decrypt c none none = .ok ([1, 2, 3], t3) := by
  obtain ⟨t0, h0⟩ := (C61_constructor key 1 iv 2).2.2 (.inr hk) hiv.1
  obtain ⟨c, t, h1, _, _, h4⟩ := C61_pkcs5 key iv 1 (.inr hk) hiv t0 t0 h0 .new [1, 2, 3] (by decide)
  exact ⟨t0, t, c, h0, h1, .encrypt .new h1, h4 t (.encrypt .new h1)⟩

end Verif.Props
