import Verif.Props.DESPads
/-! C101: pads of several bytes in pyDes, the triple_des objects. -/
namespace Verif.Props
open Verif.Py Verif.Model Verif.Model.PyDes Verif.Spec.DES

/-! ### Pads of at most one byte -/

/-- A `triple_des` object of the one-byte model as one of this model. -/
def asMT (t : Triple) : MTriple := ⟨t.base.mode, t.base.iv, t.base.padding.toList, t.base.padmode, asM t.key1, asM t.key2, asM t.key3⟩

theorem setIV_one (d : Des) (iv : List Nat) : (asM d).setIV iv = (d.setIV iv).map asM := by
  unfold MDes.setIV Des.setIV Base.setIV
  by_cases h : iv = [] ∨ iv.length ≠ 8
  · rw [if_pos h, if_pos h]; rfl
  · rw [if_neg h, if_neg h]; rfl

theorem setIVs_one (t : Triple) (iv : List Nat) : (asMT t).setIVs iv = (t.setIVs iv).map asMT := by
  unfold MTriple.setIVs Triple.setIVs
  rw [show (asMT t).key1.setIV iv = _ from setIV_one t.key1 iv, show (asMT t).key2.setIV iv = _ from setIV_one t.key2 iv,
    show (asMT t).key3.setIV iv = _ from setIV_one t.key3 iv]
  cases t.key1.setIV iv <;> cases t.key2.setIV iv <;> cases t.key3.setIV iv <;> rfl

/-- The result and the object of a call, in this model. -/
def asMR (x : List Nat × Triple) : List Nat × MTriple := (x.1, asMT x.2)

theorem encLoop_one (py3 : Bool) (bs : List (List Nat)) (t : Triple) : (asMT t).encLoop py3 bs = (t.encLoop bs).map asMR := by
  induction bs generalizing t with
  | nil => rfl
  | cons b bs ih =>
    unfold MTriple.encLoop Triple.encLoop
    simp only [bind, Except.bind, pure, Except.pure]
    rw [show (asMT t).key1.crypt py3 b true = t.key1.crypt b true from cryptM_one py3 t.key1 b true]
    cases t.key1.crypt b true with
    | error e => rfl
    | ok x =>
      simp only
      rw [show (asMT t).key2.crypt py3 x false = t.key2.crypt x false from cryptM_one py3 t.key2 x false]
      cases t.key2.crypt x false with
      | error e => rfl
      | ok y =>
        simp only
        rw [show (asMT t).key3.crypt py3 y true = t.key3.crypt y true from cryptM_one py3 t.key3 y true]
        cases t.key3.crypt y true with
        | error e => rfl
        | ok z =>
          simp only
          rw [setIVs_one]
          cases t.setIVs z with
          | error e => rfl
          | ok t' =>
            simp only [Except.map]
            rw [ih]
            cases t'.encLoop bs <;> rfl

theorem decLoop_one (py3 : Bool) (bs : List (List Nat)) (t : Triple) : (asMT t).decLoop py3 bs = (t.decLoop bs).map asMR := by
  induction bs generalizing t with
  | nil => rfl
  | cons b bs ih =>
    unfold MTriple.decLoop Triple.decLoop
    simp only [bind, Except.bind, pure, Except.pure]
    rw [show (asMT t).key3.crypt py3 b false = t.key3.crypt b false from cryptM_one py3 t.key3 b false]
    cases t.key3.crypt b false with
    | error e => rfl
    | ok x =>
      simp only
      rw [show (asMT t).key2.crypt py3 x true = t.key2.crypt x true from cryptM_one py3 t.key2 x true]
      cases t.key2.crypt x true with
      | error e => rfl
      | ok y =>
        simp only
        rw [show (asMT t).key1.crypt py3 y false = t.key1.crypt y false from cryptM_one py3 t.key1 y false]
        cases t.key1.crypt y false with
        | error e => rfl
        | ok z =>
          simp only
          rw [setIVs_one]
          cases t.setIVs b with
          | error e => rfl
          | ok t' =>
            simp only [Except.map]
            rw [ih]
            cases t'.decLoop bs <;> rfl

/-- C101. With pads of at most one byte the model of triple_des is the one the other properties of pyDes are about. -/
theorem C101_triple_one_byte (py3 : Bool) (key : List Nat) (mode : Nat) (iv m : List Nat) (pad p pm : Option Nat) (padmode : Nat) (t : Triple) :
    MTriple.new key mode iv pad.toList padmode = (Triple.new key mode iv pad padmode).map asMT ∧
    (asMT t).encrypt py3 m p.toList pm = (t.encrypt m p pm).map asMR ∧ (asMT t).decrypt py3 m p.toList pm = (t.decrypt m p pm).map asMR := by
  refine ⟨?_, ?_, ?_⟩
  · unfold MTriple.new Triple.new Base.new Triple.ofBase
    have hp : (pad.toList ≠ [] ∧ padmode = PAD_PKCS5) ↔ (pad.isSome = true ∧ padmode = PAD_PKCS5) := by cases pad <;> simp
    by_cases h1 : pad.isSome = true ∧ padmode = PAD_PKCS5
    · rw [if_pos (hp.2 h1), if_pos h1]; rfl
    rw [if_neg (fun h => h1 (hp.1 h)), if_neg h1]
    by_cases h2 : iv ≠ [] ∧ iv.length ≠ 8
    · rw [if_pos h2, if_pos h2]; rfl
    rw [if_neg h2, if_neg h2]
    simp only
    by_cases h3 : key.length ≠ 24 ∧ key.length ≠ 16
    · rw [if_pos h3, if_pos h3]; rfl
    rw [if_neg h3, if_neg h3]
    have fin : ∀ v : List Nat, (if mode = CBC ∧ v.length ≠ 8 then Except.error Err.valueError
        else do
          let k1 ← MDes.new (key.take 8) mode v pad.toList padmode
          let k2 ← MDes.new ((key.drop 8).take 8) mode v pad.toList padmode
          let k3 ← if key.length = 16 then pure k1 else MDes.new (key.drop 16) mode v pad.toList padmode
          return ⟨mode, v, pad.toList, padmode, k1, k2, k3⟩) =
        Except.map asMT (if mode = CBC ∧ v.length ≠ 8 then Except.error Err.valueError
        else do
          let k1 ← Des.new (key.take 8) mode v pad padmode
          let k2 ← Des.new ((key.drop 8).take 8) mode v pad padmode
          let k3 ← if key.length = 16 then pure k1 else Des.new (key.drop 16) mode v pad padmode
          return ⟨⟨mode, v, pad, padmode⟩, k1, k2, k3⟩) := by
      intro v
      by_cases h4 : mode = CBC ∧ v.length ≠ 8
      · rw [if_pos h4, if_pos h4]; rfl
      rw [if_neg h4, if_neg h4]
      have hn := fun key => (C101_one_byte py3 key mode v m pad p pm padmode t.key1).1
      rw [hn, hn, hn]
      cases Des.new (key.take 8) mode v pad padmode with
      | error e => rfl
      | ok k1 =>
        cases Des.new ((key.drop 8).take 8) mode v pad padmode with
        | error e => rfl
        | ok k2 =>
          simp only [Except.map, bind, Except.bind, pure, Except.pure]
          by_cases h16 : key.length = 16
          · simp only [if_pos h16]; rfl
          · simp only [if_neg h16]
            cases Des.new (key.drop 16) mode v pad padmode <;> rfl
    by_cases h5 : mode = CBC ∧ iv = []
    · rw [if_pos h5, if_pos h5]; exact fin _
    · rw [if_neg h5, if_neg h5]; exact fin _
  · unfold MTriple.encrypt Triple.encrypt
    simp only [bind, Except.bind, pure, Except.pure]
    rw [show padDataM (asMT t).padding (asMT t).padmode m p.toList pm = t.base.padData m p pm from padDataM_one t.base m p pm]
    cases t.base.padData m p pm with
    | error e => rfl
    | ok r =>
      simp only
      by_cases hc : t.base.mode = CBC
      · rw [if_pos hc, if_pos (show (asMT t).mode = CBC from hc), show (asMT t).setIVs (asMT t).iv = _ from setIVs_one t t.base.iv]
        cases t.setIVs t.base.iv with
        | error e => rfl
        | ok t' => exact encLoop_one py3 _ t'
      · rw [if_neg hc, if_neg (show ¬ (asMT t).mode = CBC from hc)]
        rw [show (asMT t).key1.crypt py3 r true = t.key1.crypt r true from cryptM_one py3 t.key1 r true]
        cases t.key1.crypt r true with
        | error e => rfl
        | ok x =>
          simp only
          rw [show (asMT t).key2.crypt py3 x false = t.key2.crypt x false from cryptM_one py3 t.key2 x false]
          cases t.key2.crypt x false with
          | error e => rfl
          | ok y =>
            simp only
            rw [show (asMT t).key3.crypt py3 y true = t.key3.crypt y true from cryptM_one py3 t.key3 y true]
            cases t.key3.crypt y true <;> rfl
  · unfold MTriple.decrypt Triple.decrypt
    simp only [bind, Except.bind, pure, Except.pure]
    by_cases hc : t.base.mode = CBC
    · rw [if_pos hc, if_pos (show (asMT t).mode = CBC from hc), show (asMT t).setIVs (asMT t).iv = _ from setIVs_one t t.base.iv]
      cases t.setIVs t.base.iv with
      | error e => rfl
      | ok t' =>
        simp only [Except.map]
        rw [decLoop_one py3 _ t']
        cases t'.decLoop (blocks m) with
        | error e => rfl
        | ok x =>
          simp only [Except.map, asMR]
          rw [show unpadDataM (asMT x.2).padding (asMT x.2).padmode x.1 p.toList pm = x.2.base.unpadData x.1 p pm from unpadDataM_one x.2.base x.1 p pm]
          cases x.2.base.unpadData x.1 p pm <;> rfl
    · rw [if_neg hc, if_neg (show ¬ (asMT t).mode = CBC from hc)]
      rw [show (asMT t).key3.crypt py3 m false = t.key3.crypt m false from cryptM_one py3 t.key3 m false]
      cases t.key3.crypt m false with
      | error e => rfl
      | ok x =>
        simp only
        rw [show (asMT t).key2.crypt py3 x true = t.key2.crypt x true from cryptM_one py3 t.key2 x true]
        cases t.key2.crypt x true with
        | error e => rfl
        | ok y =>
          simp only
          rw [show (asMT t).key1.crypt py3 y false = t.key1.crypt y false from cryptM_one py3 t.key1 y false]
          cases t.key1.crypt y false with
          | error e => rfl
          | ok z =>
            simp only
            rw [show unpadDataM (asMT t).padding (asMT t).padmode z p.toList pm = t.base.unpadData z p pm from unpadDataM_one t.base z p pm]
            cases t.base.unpadData z p pm <;> rfl

/-! ### Pads of any length -/

/-- A `triple_des` object built with the settings and keys, its inner objects having some IVs. -/
def mtriple (mode : Nat) (iv q k1 k2 k3 v1 v2 v3 : List Nat) : MTriple :=
  ⟨mode, iv, q, 1, ⟨mode, v1, q, 1, createSubKeys k1⟩, ⟨mode, v2, q, 1, createSubKeys k2⟩, ⟨mode, v3, q, 1, createSubKeys k3⟩⟩

/-- The same without pads, in the one-byte model. -/
def ptriple (mode : Nat) (iv k1 k2 k3 v1 v2 v3 : List Nat) : Triple :=
  ⟨⟨mode, iv, none, 1⟩, ⟨⟨mode, v1, none, 1⟩, createSubKeys k1⟩, ⟨⟨mode, v2, none, 1⟩, createSubKeys k2⟩, ⟨⟨mode, v3, none, 1⟩, createSubKeys k3⟩⟩

theorem ptriple_like (mode : Nat) (iv k1 k2 k3 v1 v2 v3 : List Nat) : Like (ptriple mode iv k1 k2 k3 v1 v2 v3) ⟨mode, iv, none, 1⟩ k1 k2 k3 :=
  ⟨rfl, rfl, rfl, rfl, rfl, rfl, rfl⟩

theorem msetIVs_ok (mode : Nat) (iv q k1 k2 k3 v1 v2 v3 v : List Nat) (h : v.length = 8) :
    (mtriple mode iv q k1 k2 k3 v1 v2 v3).setIVs v = .ok (mtriple mode iv q k1 k2 k3 v v v) := by
  have hn : ¬ (v = [] ∨ v.length ≠ 8) := by rintro (rfl | h'); · simp at h
                                            · exact h' h
  unfold MTriple.setIVs mtriple MDes.setIV
  simp only [if_neg hn]
  rfl

theorem msetIVs_err (t : MTriple) (v : List Nat) (h : v.length ≠ 8) : t.setIVs v = .error .valueError := by
  unfold MTriple.setIVs MDes.setIV
  simp only [if_pos (show v = [] ∨ v.length ≠ 8 from .inr h)]
  rfl

/-- One block in CBC mode, encrypting. -/
theorem crypt1M_enc (py3 : Bool) (q k v x : List Nat) (hv : IsBlock v) (hx : x.length = 8) :
    (MDes.mk 1 v q 1 (createSubKeys k)).crypt py3 x true = .ok (encipher k (xorBytes x v)) := by
  rw [cryptM_aligned py3 _ x true (by omega)]
  exact crypt1_enc (Des.mk ⟨1, v, none, 1⟩ (createSubKeys k)) k v x rfl rfl hv hx

/-- One block in CBC mode, decrypting. -/
theorem crypt1M_dec (py3 : Bool) (q k v x : List Nat) (hv : IsBlock v) (hx : IsBlock x) :
    (MDes.mk 1 v q 1 (createSubKeys k)).crypt py3 x false = .ok (xorBytes (decipher k x) v) := by
  rw [cryptM_aligned py3 _ x false (by rw [hx.1])]
  exact crypt1_dec (Des.mk ⟨1, v, none, 1⟩ (createSubKeys k)) k v x rfl rfl hv hx

/-- One step of the CBC loop. -/
theorem encLoopM_step (py3 : Bool) (iv q k1 k2 k3 x : List Nat) (ys : List (List Nat)) (hx : x.length = 8) (v : List Nat) (hv : IsBlock v) :
    (mtriple 1 iv q k1 k2 k3 v v v).encLoop py3 (x :: ys) =
      ((mtriple 1 iv q k1 k2 k3 (encipher3 k1 k2 k3 (xorBytes x v)) (encipher3 k1 k2 k3 (xorBytes x v)) (encipher3 k1 k2 k3 (xorBytes x v))).encLoop py3 ys).map
        fun r => (encipher3 k1 k2 k3 (xorBytes x v) ++ r.1, r.2) := by
  have hE : IsBlock (encipher3 k1 k2 k3 (xorBytes x v)) := encipher3_block _ _ _ _
  have e1 : (mtriple 1 iv q k1 k2 k3 v v v).key1.crypt py3 x true = .ok (encipher k1 (xorBytes x v)) := crypt1M_enc py3 q k1 v x hv hx
  have e2 : (mtriple 1 iv q k1 k2 k3 v v v).key2.crypt py3 (encipher k1 (xorBytes x v)) false =
      .ok (xorBytes (decipher k2 (encipher k1 (xorBytes x v))) v) := crypt1M_dec py3 q k2 v _ hv (encipher_block _ _)
  have hd := decipher_block k2 (encipher k1 (xorBytes x v))
  have e3 : (mtriple 1 iv q k1 k2 k3 v v v).key3.crypt py3 (xorBytes (decipher k2 (encipher k1 (xorBytes x v))) v) true =
      .ok (encipher3 k1 k2 k3 (xorBytes x v)) := by
    have := crypt1M_enc py3 q k3 v (xorBytes (decipher k2 (encipher k1 (xorBytes x v))) v) hv (xorBytes_block _ _ hd hv).1
    rw [xorBytes_cancel _ _ (by rw [hd.1, hv.1])] at this
    exact this
  have e4 := msetIVs_ok 1 iv q k1 k2 k3 v v v _ hE.1
  rw [MTriple.encLoop]
  simp only [bind, Except.bind, pure, Except.pure, e1, e2, e3, e4]
  generalize (mtriple 1 iv q k1 k2 k3 _ _ _).encLoop py3 ys = r
  cases r <;> rfl

/-- The blocks of the CBC loop, followed by whatever comes after them. -/
theorem encLoopM_blocks (py3 : Bool) (iv q k1 k2 k3 : List Nat) (bs : List (List Nat)) (hb : ∀ x ∈ bs, IsBlock x) (v : List Nat) (hv : IsBlock v) :
    ∃ w, IsBlock w ∧ ∀ rest, (mtriple 1 iv q k1 k2 k3 v v v).encLoop py3 (bs ++ rest) =
      ((mtriple 1 iv q k1 k2 k3 w w w).encLoop py3 rest).map fun x => ((cbcEncrypt (encipher3 k1 k2 k3) v bs).flatten ++ x.1, x.2) := by
  induction bs generalizing v with
  | nil =>
    refine ⟨v, hv, fun rest => ?_⟩
    cases h : (mtriple 1 iv q k1 k2 k3 v v v).encLoop py3 rest with
    | error e => exact h
    | ok x => rw [List.nil_append, h]; rfl
  | cons x xs ih =>
    obtain ⟨w, hw, ht'⟩ := ih (fun c hc => hb c (by simp [hc])) _ (encipher3_block k1 k2 k3 (xorBytes x v))
    refine ⟨w, hw, fun rest => ?_⟩
    rw [List.cons_append, encLoopM_step py3 iv q k1 k2 k3 x _ (hb x (by simp)).1 v hv, ht']
    generalize (mtriple 1 iv q k1 k2 k3 w w w).encLoop py3 rest = r
    cases r with
    | error e => rfl
    | ok y => simp [Except.map, cbcEncrypt]

/-- What three-key encryption of whole blocks gives in the two modes. -/
def cipherText (mode : Nat) (iv k1 k2 k3 : List Nat) (bs : List (List Nat)) : List Nat :=
  if mode = 1 then (cbcEncrypt (encipher3 k1 k2 k3) iv bs).flatten else (ecb (encipher3 k1 k2 k3) bs).flatten

/-- The three passes in ECB mode. -/
theorem mpasses (py3 : Bool) (iv q k1 k2 k3 v1 v2 v3 : List Nat) (bs : List (List Nat)) (hb : ∀ x ∈ bs, IsBlock x) :
    ∃ r1 r2, (plain (mtriple 0 iv q k1 k2 k3 v1 v2 v3).key1).crypt bs.flatten true = .ok r1 ∧
      (mtriple 0 iv q k1 k2 k3 v1 v2 v3).key2.crypt py3 r1 false = .ok r2 ∧
      (mtriple 0 iv q k1 k2 k3 v1 v2 v3).key3.crypt py3 r2 true = .ok (ecb (encipher3 k1 k2 k3) bs).flatten := by
  obtain ⟨g1, _⟩ := ecb_blocks (encipher k1) (fun x _ => encipher_block k1 x) bs hb
  obtain ⟨g2, _⟩ := ecb_blocks (decipher k2) (fun x _ => decipher_block k2 x) _ g1
  have e1 := crypt_ecb (plain (mtriple 0 iv q k1 k2 k3 v1 v2 v3).key1) (by show (0 : Nat) ≠ 1; decide) true bs (fun b h => (hb b h).1)
  have e2 := crypt_ecb (plain (mtriple 0 iv q k1 k2 k3 v1 v2 v3).key2) (by show (0 : Nat) ≠ 1; decide) false _ (fun b h => (g1 b h).1)
  have e3 := crypt_ecb (plain (mtriple 0 iv q k1 k2 k3 v1 v2 v3).key3) (by show (0 : Nat) ≠ 1; decide) true _ (fun b h => (g2 b h).1)
  rw [show (plain (mtriple 0 iv q k1 k2 k3 v1 v2 v3).key1).Kn = createSubKeys k1 from rfl, enc_eq] at e1
  rw [show (plain (mtriple 0 iv q k1 k2 k3 v1 v2 v3).key2).Kn = createSubKeys k2 from rfl, dec_eq] at e2
  rw [show (plain (mtriple 0 iv q k1 k2 k3 v1 v2 v3).key3).Kn = createSubKeys k3 from rfl, enc_eq] at e3
  have e4 : (ecb (encipher k3) (ecb (decipher k2) (ecb (encipher k1) bs))) = ecb (encipher3 k1 k2 k3) bs := by
    simp [ecb, encipher3, List.map_map, Function.comp_def]
  rw [e4] at e3
  exact ⟨_, _, e1, (cryptM_aligned py3 _ _ false (flatten_mod8 _ g1)).trans e2, (cryptM_aligned py3 _ _ true (flatten_mod8 _ g2)).trans e3⟩

/-- Data that the padding has made whole blocks. -/
theorem mtriple_encrypt (py3 : Bool) (mode : Nat) (hmode : mode = 0 ∨ mode = 1) (iv q k1 k2 k3 v1 v2 v3 : List Nat) (hiv : IsBlock iv)
    (bs : List (List Nat)) (hb : ∀ x ∈ bs, IsBlock x) (m p : List Nat) (pm : Option Nat) (hp : padDataM q 1 m p pm = .ok bs.flatten) :
    ∃ w1 w2 w3, (mtriple mode iv q k1 k2 k3 v1 v2 v3).encrypt py3 m p pm =
      .ok (cipherText mode iv k1 k2 k3 bs, mtriple mode iv q k1 k2 k3 w1 w2 w3) := by
  unfold MTriple.encrypt cipherText
  simp only [bind, Except.bind, pure, Except.pure]
  rw [show padDataM (mtriple mode iv q k1 k2 k3 v1 v2 v3).padding (mtriple mode iv q k1 k2 k3 v1 v2 v3).padmode m p pm = _ from hp]
  simp only
  rcases hmode with rfl | rfl
  · obtain ⟨r1, r2, e1, e2, e3⟩ := mpasses py3 iv q k1 k2 k3 v1 v2 v3 bs hb
    refine ⟨v1, v2, v3, ?_⟩
    rw [if_neg (by show ¬ (0 : Nat) = 1; decide), if_neg (by decide), cryptM_aligned py3 _ _ true (flatten_mod8 bs hb), e1]
    simp only [e2, e3]
  · rw [if_pos (by rfl), if_pos rfl, show (mtriple 1 iv q k1 k2 k3 v1 v2 v3).iv = iv from rfl, msetIVs_ok 1 iv q k1 k2 k3 v1 v2 v3 iv hiv.1]
    simp only
    rw [blocks_flatten bs (fun b h => (hb b h).1)]
    obtain ⟨w, hw, e⟩ := encLoopM_blocks py3 iv q k1 k2 k3 bs hb iv hiv
    replace e := e []
    rw [List.append_nil] at e
    refine ⟨w, w, w, ?_⟩
    rw [e]
    simp [MTriple.encLoop, Except.map]

/-- Data that the padding has not made whole blocks, in ECB mode. -/
theorem mtriple_encrypt_short_ecb (py3 : Bool) (iv q k1 k2 k3 v1 v2 v3 : List Nat) (hq : ∀ x ∈ q, x < 256)
    (m p T : List Nat) (hT : ∀ x ∈ T, x < 256) (h8 : T.length % 8 ≠ 0) (pm : Option Nat) (hp : padDataM q 1 m p pm = .ok T) :
    (q = [] → (mtriple 0 iv q k1 k2 k3 v1 v2 v3).encrypt py3 m p pm = .error .valueError) ∧
    (q ≠ [] → (topUp q T).length % 8 ≠ 0 → (mtriple 0 iv q k1 k2 k3 v1 v2 v3).encrypt py3 m p pm = .error .indexError) ∧
    (∀ bs, q ≠ [] → (∀ b ∈ bs, IsBlock b) → topUp q T = bs.flatten →
      (mtriple 0 iv q k1 k2 k3 v1 v2 v3).encrypt py3 m p pm = .ok (cipherText 0 iv k1 k2 k3 bs, mtriple 0 iv q k1 k2 k3 v1 v2 v3)) := by
  have hs := cryptM_short py3 (mtriple 0 iv q k1 k2 k3 v1 v2 v3).key1 T (by rintro ⟨h, _⟩; exact absurd (show (0 : Nat) = 1 from h) (by decide)) h8
  rw [show (mtriple 0 iv q k1 k2 k3 v1 v2 v3).key1.padding = q from rfl] at hs
  unfold MTriple.encrypt cipherText
  simp only [bind, Except.bind, pure, Except.pure]
  rw [show padDataM (mtriple 0 iv q k1 k2 k3 v1 v2 v3).padding (mtriple 0 iv q k1 k2 k3 v1 v2 v3).padmode m p pm = _ from hp]
  simp only
  rw [if_neg (show ¬ (mtriple 0 iv q k1 k2 k3 v1 v2 v3).mode = CBC by show ¬ (0 : Nat) = 1; decide), hs]
  refine ⟨?_, ?_, ?_⟩
  · intro h
    rw [if_pos h]
  · intro h h'
    rw [if_neg h, if_pos h', if_neg (by rintro ⟨h, _⟩; exact absurd (show (0 : Nat) = 1 from h) (by decide))]
  · intro bs h hb he
    obtain ⟨r1, r2, e1, e2, e3⟩ := mpasses py3 iv q k1 k2 k3 v1 v2 v3 bs hb
    rw [if_neg h, if_neg (by rw [he, flatten_mod8 bs hb]; decide), he, e1]
    simp only [e2, e3]
    rw [if_neg (by decide)]

theorem blocksF_join (n : Nat) (m : List Nat) (h : m.length ≤ n) : (blocksF n m).flatten = m := by
  induction n generalizing m with
  | zero => rw [List.length_eq_zero_iff.1 (by omega : m.length = 0)]; rfl
  | succ n ih =>
    unfold blocksF
    by_cases hm : m = []
    · rw [if_pos hm, hm]; rfl
    · have : 0 < m.length := List.length_pos_iff.2 hm
      rw [if_neg hm, List.flatten_cons, ih _ (by rw [List.length_drop]; omega), List.take_append_drop]

theorem topUp_suffix (q a r : List Nat) (h : a.length % 8 = 0) : topUp q (a ++ r) = a ++ topUp q r := by
  unfold topUp
  rw [List.length_append, show (a.length + r.length) % 8 = r.length % 8 by omega]
  split <;> simp

/-- The last, short block in the CBC loop. -/
theorem encLoopM_short (py3 : Bool) (iv q k1 k2 k3 r v : List Nat) (hv : IsBlock v) (h0 : 0 < r.length) (h8 : r.length < 8)
    (hq : ∀ x ∈ q, x < 256) (hr : ∀ x ∈ r, x < 256) :
    (mtriple 1 iv q k1 k2 k3 v v v).encLoop py3 [r] =
      if q = [] then .error .valueError
      else if (topUp q r).length % 8 ≠ 0 then .error (if py3 then .indexError else .typeError)
      else if q.length = 1 then (mtriple 1 iv q k1 k2 k3 v v v).encLoop py3 [topUp q r]
      else .error .valueError := by
  have hs := cryptM_short py3 (mtriple 1 iv q k1 k2 k3 v v v).key1 r (fun h => iv_block_ne v hv h.2) (by omega)
  rw [show (mtriple 1 iv q k1 k2 k3 v v v).key1.padding = q from rfl] at hs
  have hl := topUp_length q r (by omega)
  by_cases hqe : q = []
  · rw [if_pos hqe] at hs ⊢
    rw [MTriple.encLoop]
    simp only [bind, Except.bind, hs]
  rw [if_neg hqe] at hs ⊢
  by_cases ht : (topUp q r).length % 8 = 0
  · rw [if_neg (by omega)] at hs ⊢
    rw [← cryptM_aligned py3 _ _ true ht] at hs
    by_cases h1 : q.length = 1
    · rw [if_pos h1, MTriple.encLoop, MTriple.encLoop]
      simp only [bind, Except.bind, hs]
    · rw [if_neg h1, MTriple.encLoop]
      have hq2 : 2 ≤ q.length := by have := List.length_pos_iff.2 hqe; omega
      have h16 : 16 ≤ (topUp q r).length := by
        have : (8 - r.length % 8) * 2 ≤ (8 - r.length % 8) * q.length := Nat.mul_le_mul_left _ hq2
        omega
      obtain ⟨bs, hbs, hb⟩ := exists_blocks (topUp q r) ht (topUp_bytes q r hq hr)
      have hbl : 2 ≤ bs.length := by
        have := flatten_length8 bs (fun b h => (hb b h).1)
        rw [hbs] at this; omega
      obtain ⟨g1, l1⟩ := cbcEncrypt_blocks (encipher k1) (fun x _ => encipher_block k1 x) v hv bs hb
      obtain ⟨g2, l2⟩ := cbcDecrypt_blocks (decipher k2) (fun x _ => decipher_block k2 x) v hv _ g1
      obtain ⟨g3, l3⟩ := cbcEncrypt_blocks (encipher k3) (fun x _ => encipher_block k3 x) v hv _ g2
      have e1 := crypt_cbc_enc (plain (mtriple 1 iv q k1 k2 k3 v v v).key1) rfl (iv_block_ne v hv) bs (fun b h => (hb b h).1)
      have e2 := crypt_cbc_dec (plain (mtriple 1 iv q k1 k2 k3 v v v).key2) rfl hv _ g1
      have e3 := crypt_cbc_enc (plain (mtriple 1 iv q k1 k2 k3 v v v).key3) rfl (iv_block_ne v hv) _ (fun b h => (g2 b h).1)
      rw [show (plain (mtriple 1 iv q k1 k2 k3 v v v).key1).Kn = createSubKeys k1 from rfl, enc_eq, hbs, ← cryptM_aligned py3 _ _ true ht] at e1
      rw [show (plain (mtriple 1 iv q k1 k2 k3 v v v).key2).Kn = createSubKeys k2 from rfl, dec_eq,
        show (plain (mtriple 1 iv q k1 k2 k3 v v v).key2).base.iv = v from rfl, ← cryptM_aligned py3 _ _ false (flatten_mod8 _ g1)] at e2
      rw [show (plain (mtriple 1 iv q k1 k2 k3 v v v).key3).Kn = createSubKeys k3 from rfl, enc_eq, 
        show (plain (mtriple 1 iv q k1 k2 k3 v v v).key3).base.iv = v from rfl, ← cryptM_aligned py3 _ _ true (flatten_mod8 _ g2)] at e3
      rw [show (plain (mtriple 1 iv q k1 k2 k3 v v v).key1).base.iv = v from rfl] at e1
      have hlen : (cbcEncrypt (encipher k3) v (cbcDecrypt (decipher k2) v (cbcEncrypt (encipher k1) v bs))).flatten.length ≠ 8 := by
        rw [flatten_length8 _ (fun b h => (g3 b h).1), l3, l2, l1]; omega
      have e4 := msetIVs_err (mtriple 1 iv q k1 k2 k3 v v v) _ hlen
      simp only [bind, Except.bind, hs, e1, e2, e3, e4]
  · rw [if_pos ht] at hs ⊢
    rw [MTriple.encLoop]
    simp only [bind, Except.bind, hs]
    cases py3
    · rw [if_pos ⟨rfl, rfl⟩, if_neg (by decide)]
    · rw [if_neg (by simp), if_pos rfl]

/-- Data that the padding has not made whole blocks, in CBC mode. -/
theorem mtriple_encrypt_short_cbc (py3 : Bool) (iv q k1 k2 k3 v1 v2 v3 : List Nat) (hiv : IsBlock iv) (hq : ∀ x ∈ q, x < 256)
    (m p T : List Nat) (hT : ∀ x ∈ T, x < 256) (h8 : T.length % 8 ≠ 0) (pm : Option Nat) (hp : padDataM q 1 m p pm = .ok T) :
    (q = [] → (mtriple 1 iv q k1 k2 k3 v1 v2 v3).encrypt py3 m p pm = .error .valueError) ∧
    (q ≠ [] → (topUp q T).length % 8 ≠ 0 → (mtriple 1 iv q k1 k2 k3 v1 v2 v3).encrypt py3 m p pm = .error (if py3 then .indexError else .typeError)) ∧
    (2 ≤ q.length → (topUp q T).length % 8 = 0 → (mtriple 1 iv q k1 k2 k3 v1 v2 v3).encrypt py3 m p pm = .error .valueError) ∧
    (∀ bs, q.length = 1 → (∀ b ∈ bs, IsBlock b) → topUp q T = bs.flatten →
      ∃ w1 w2 w3, (mtriple 1 iv q k1 k2 k3 v1 v2 v3).encrypt py3 m p pm = .ok (cipherText 1 iv k1 k2 k3 bs, mtriple 1 iv q k1 k2 k3 w1 w2 w3)) := by
  obtain ⟨as, r, ha, hr0, hr8, hbl⟩ := blocks_rest T hT h8
  have hTe : T = as.flatten ++ r := by
    have := blocksF_join T.length T (Nat.le_refl _)
    rw [show blocksF T.length T = blocks T from rfl, hbl] at this
    simpa using this.symm
  have hrb : ∀ x ∈ r, x < 256 := fun x hx => hT x (by rw [hTe]; exact List.mem_append_right _ hx)
  have hal := flatten_mod8 as ha
  have htop : topUp q T = as.flatten ++ topUp q r := by rw [hTe]; exact topUp_suffix q _ r hal
  have htl : (topUp q T).length % 8 = (topUp q r).length % 8 := by rw [htop, List.length_append]; omega
  obtain ⟨w, hw, e0⟩ := encLoopM_blocks py3 iv q k1 k2 k3 as ha iv hiv
  have e := e0 [r]
  rw [encLoopM_short py3 iv q k1 k2 k3 r w hw hr0 hr8 hq hrb] at e
  have hE : (mtriple 1 iv q k1 k2 k3 v1 v2 v3).encrypt py3 m p pm = (mtriple 1 iv q k1 k2 k3 iv iv iv).encLoop py3 (as ++ [r]) := by
    unfold MTriple.encrypt
    simp only [bind, Except.bind, pure, Except.pure]
    rw [show padDataM (mtriple 1 iv q k1 k2 k3 v1 v2 v3).padding (mtriple 1 iv q k1 k2 k3 v1 v2 v3).padmode m p pm = _ from hp]
    simp only
    rw [if_pos (by rfl), show (mtriple 1 iv q k1 k2 k3 v1 v2 v3).iv = iv from rfl, msetIVs_ok 1 iv q k1 k2 k3 v1 v2 v3 iv hiv.1]
    simp only
    rw [hbl]
  rw [hE, e, ← htl]
  refine ⟨?_, ?_, ?_, ?_⟩
  · intro h
    rw [if_pos h]; rfl
  · intro h h'
    rw [if_neg h, if_pos h']; rfl
  · intro h h'
    rw [if_neg (by rintro rfl; simp at h), if_neg (by omega), if_neg (by omega)]; rfl
  · intro bs h hb he
    have hb8 : (topUp q T).length % 8 = 0 := by rw [he]; exact flatten_mod8 bs hb
    have hrl : (topUp q r).length = 8 := by rw [topUp_length q r (by omega), h]; omega
    have hrB : IsBlock (topUp q r) := ⟨hrl, topUp_bytes q r hq hrb⟩
    have hbs : bs = as ++ [topUp q r] := by
      have e1 := blocks_flatten bs (fun b h => (hb b h).1)
      have hab : ∀ b ∈ as ++ [topUp q r], IsBlock b := by
        intro b hb'
        rcases List.mem_append.1 hb' with h | h
        · exact ha b h
        · simp at h; subst h; exact hrB
      have e2 := blocks_flatten (as ++ [topUp q r]) (fun b h => (hab b h).1)
      rw [← e1, ← he, ← e2, htop]
      simp
    rw [if_neg (by rintro rfl; simp at h), if_neg (by omega), if_pos h]
    obtain ⟨w', hw', e'⟩ := encLoopM_blocks py3 iv q k1 k2 k3 bs hb iv hiv
    have e1 := e' []
    rw [List.append_nil, hbs, e0 [topUp q r], ← hbs] at e1
    refine ⟨w', w', w', ?_⟩
    rw [e1]
    simp [MTriple.encLoop, Except.map, cipherText]

/-! ### Decrypting -/

/-- The CBC loop of decryption on blocks. -/
theorem decLoopM_blocks (py3 : Bool) (iv q k1 k2 k3 : List Nat) (bs : List (List Nat)) (hb : ∀ x ∈ bs, IsBlock x) (v : List Nat) (hv : IsBlock v) :
    ∃ w, (mtriple 1 iv q k1 k2 k3 v v v).decLoop py3 bs = .ok ((cbcDecrypt (decipher3 k1 k2 k3) v bs).flatten, mtriple 1 iv q k1 k2 k3 w w w) := by
  induction bs generalizing v with
  | nil => exact ⟨v, rfl⟩
  | cons x xs ih =>
    have hx := hb x (by simp)
    obtain ⟨w, ht'⟩ := ih (fun c hc => hb c (by simp [hc])) x hx
    refine ⟨w, ?_⟩
    rw [MTriple.decLoop]
    have e1 : (mtriple 1 iv q k1 k2 k3 v v v).key3.crypt py3 x false = .ok (xorBytes (decipher k3 x) v) := crypt1M_dec py3 q k3 v x hv hx
    have hd := decipher_block k3 x
    have e2 : (mtriple 1 iv q k1 k2 k3 v v v).key2.crypt py3 (xorBytes (decipher k3 x) v) true = .ok (encipher k2 (decipher k3 x)) := by
      have := crypt1M_enc py3 q k2 v (xorBytes (decipher k3 x) v) hv (xorBytes_block _ _ hd hv).1
      rw [xorBytes_cancel _ _ (by rw [hd.1, hv.1])] at this
      exact this
    have e3 : (mtriple 1 iv q k1 k2 k3 v v v).key1.crypt py3 (encipher k2 (decipher k3 x)) false = .ok (xorBytes (decipher3 k1 k2 k3 x) v) :=
      crypt1M_dec py3 q k1 v _ hv (encipher_block _ _)
    have e4 := msetIVs_ok 1 iv q k1 k2 k3 v v v x hx.1
    simp only [bind, Except.bind, pure, Except.pure, e1, e2, e3, e4, ht']
    rfl

/-- What was encrypted comes back, up to the removal of pad bytes. -/
theorem mtriple_back (py3 : Bool) (mode : Nat) (hmode : mode = 0 ∨ mode = 1) (iv q k1 k2 k3 v1 v2 v3 : List Nat) (hiv : IsBlock iv)
    (bs : List (List Nat)) (hb : ∀ x ∈ bs, IsBlock x) (hne : bs ≠ []) (p : List Nat) (pm : Option Nat) (hpm : pm = none ∨ pm = some 1) :
    ∃ w1 w2 w3, (mtriple mode iv q k1 k2 k3 v1 v2 v3).decrypt py3 (cipherText mode iv k1 k2 k3 bs) p pm =
      .ok (bs.flatten.take (bs.flatten.length - 8) ++ rstripSet (bs.flatten.drop (bs.flatten.length - 8)) (padInForce p q),
        mtriple mode iv q k1 k2 k3 w1 w2 w3) := by
  have hl : 8 ≤ bs.flatten.length := by
    rw [flatten_length8 bs (fun b h => (hb b h).1)]
    have := List.length_pos_iff.2 hne
    omega
  have hu := unpadDataM_normal q p bs.flatten pm hpm hl
  have hE : ∀ b, IsBlock b → IsBlock (encipher3 k1 k2 k3 b) := fun b _ => encipher3_block _ _ _ b
  have hi : ∀ b, IsBlock b → decipher3 k1 k2 k3 (encipher3 k1 k2 k3 b) = b := fun b hb => (C61_standard k1 k2 k3 b hb).1
  unfold MTriple.decrypt cipherText
  simp only [bind, Except.bind, pure, Except.pure]
  rcases hmode with rfl | rfl
  · rw [if_neg (show ¬ (mtriple 0 iv q k1 k2 k3 v1 v2 v3).mode = CBC by show ¬ (0 : Nat) = 1; decide), if_neg (show ¬ (0 : Nat) = 1 by decide)]
    obtain ⟨g0, _⟩ := ecb_blocks (encipher3 k1 k2 k3) hE bs hb
    generalize hcs : ecb (encipher3 k1 k2 k3) bs = cs at *
    obtain ⟨g1, _⟩ := ecb_blocks (decipher k3) (fun x _ => decipher_block k3 x) cs g0
    obtain ⟨g2, _⟩ := ecb_blocks (encipher k2) (fun x _ => encipher_block k2 x) _ g1
    have e1 := crypt_ecb (plain (mtriple 0 iv q k1 k2 k3 v1 v2 v3).key3) (by show (0 : Nat) ≠ 1; decide) false cs (fun b h => (g0 b h).1)
    have e2 := crypt_ecb (plain (mtriple 0 iv q k1 k2 k3 v1 v2 v3).key2) (by show (0 : Nat) ≠ 1; decide) true _ (fun b h => (g1 b h).1)
    have e3 := crypt_ecb (plain (mtriple 0 iv q k1 k2 k3 v1 v2 v3).key1) (by show (0 : Nat) ≠ 1; decide) false _ (fun b h => (g2 b h).1)
    rw [show (plain (mtriple 0 iv q k1 k2 k3 v1 v2 v3).key3).Kn = createSubKeys k3 from rfl, dec_eq, ← cryptM_aligned py3 _ _ false (flatten_mod8 _ g0)] at e1
    rw [show (plain (mtriple 0 iv q k1 k2 k3 v1 v2 v3).key2).Kn = createSubKeys k2 from rfl, enc_eq, ← cryptM_aligned py3 _ _ true (flatten_mod8 _ g1)] at e2
    rw [show (plain (mtriple 0 iv q k1 k2 k3 v1 v2 v3).key1).Kn = createSubKeys k1 from rfl, dec_eq, ← cryptM_aligned py3 _ _ false (flatten_mod8 _ g2)] at e3
    have e4 : (ecb (decipher k1) (ecb (encipher k2) (ecb (decipher k3) cs))) = bs := by
      have : (ecb (decipher k1) (ecb (encipher k2) (ecb (decipher k3) cs))) = ecb (decipher3 k1 k2 k3) cs := by
        simp [ecb, decipher3, List.map_map, Function.comp_def]
      rw [this, ← hcs]
      exact ecb_inverse _ _ hi bs hb
    rw [e4] at e3
    refine ⟨v1, v2, v3, ?_⟩
    simp only [e1, e2, e3]
    rw [show unpadDataM (mtriple 0 iv q k1 k2 k3 v1 v2 v3).padding (mtriple 0 iv q k1 k2 k3 v1 v2 v3).padmode bs.flatten p pm = _ from hu]
  · rw [if_pos (show (mtriple 1 iv q k1 k2 k3 v1 v2 v3).mode = CBC from rfl), if_pos rfl, show (mtriple 1 iv q k1 k2 k3 v1 v2 v3).iv = iv from rfl,
      msetIVs_ok 1 iv q k1 k2 k3 v1 v2 v3 iv hiv.1]
    simp only
    obtain ⟨g0, _⟩ := cbcEncrypt_blocks (encipher3 k1 k2 k3) hE iv hiv bs hb
    rw [blocks_flatten _ (fun b h => (g0 b h).1)]
    obtain ⟨w, e⟩ := decLoopM_blocks py3 iv q k1 k2 k3 _ g0 iv hiv
    rw [cbc_inverse _ _ hi hE iv hiv bs hb] at e
    refine ⟨w, w, w, ?_⟩
    rw [e]
    simp only
    rw [show unpadDataM (mtriple 1 iv q k1 k2 k3 w w w).padding (mtriple 1 iv q k1 k2 k3 w w w).padmode bs.flatten p pm = _ from hu]

/-! ### Objects with a history -/

/-- A triple_des object after any calls of encrypt and decrypt; a call that raises may leave any IVs in the inner objects. -/
inductive UsedM (py3 : Bool) (t0 : MTriple) : MTriple → Prop
  | new : UsedM py3 t0 t0
  | encrypt {t t' m r pad padmode} : UsedM py3 t0 t → t.encrypt py3 m pad padmode = .ok (r, t') → UsedM py3 t0 t'
  | decrypt {t t' m r pad padmode} : UsedM py3 t0 t → t.decrypt py3 m pad padmode = .ok (r, t') → UsedM py3 t0 t'
  | raised {t} (v1 v2 v3 : List Nat) : UsedM py3 t0 t → UsedM py3 t0 ⟨t.mode, t.iv, t.padding, t.padmode, ⟨t.key1.mode, v1, t.key1.padding, t.key1.padmode, t.key1.Kn⟩,
      ⟨t.key2.mode, v2, t.key2.padding, t.key2.padmode, t.key2.Kn⟩, ⟨t.key3.mode, v3, t.key3.padding, t.key3.padmode, t.key3.Kn⟩⟩

/-- An object of the form above. -/
def Formed (mode : Nat) (iv q k1 k2 k3 : List Nat) (t : MTriple) : Prop := ∃ v1 v2 v3, t = mtriple mode iv q k1 k2 k3 v1 v2 v3

theorem formed_setIVs {mode : Nat} {iv q k1 k2 k3 v : List Nat} {t t' : MTriple} (h : Formed mode iv q k1 k2 k3 t) (e : t.setIVs v = .ok t') :
    Formed mode iv q k1 k2 k3 t' := by
  obtain ⟨v1, v2, v3, rfl⟩ := h
  by_cases hl : v.length = 8
  · rw [msetIVs_ok _ _ _ _ _ _ _ _ _ _ hl] at e
    injection e with e
    exact ⟨v, v, v, e.symm⟩
  · rw [msetIVs_err _ _ hl] at e; cases e

theorem formed_encLoop (py3 : Bool) {mode : Nat} {iv q k1 k2 k3 : List Nat} (bs : List (List Nat)) (t t' : MTriple) (h : Formed mode iv q k1 k2 k3 t) (r : List Nat)
    (e : t.encLoop py3 bs = .ok (r, t')) : Formed mode iv q k1 k2 k3 t' := by
  induction bs generalizing t r with
  | nil => rw [MTriple.encLoop] at e; injection e with e; injection e with _ e; subst e; exact h
  | cons x xs ih =>
    rw [MTriple.encLoop] at e
    simp only [bind, Except.bind, pure, Except.pure] at e
    split at e
    · cases e
    split at e
    · cases e
    split at e
    · cases e
    split at e
    · cases e
    next t2 h2 =>
    split at e
    · cases e
    next x2 h3 =>
    injection e with e
    injection e with _ e
    exact ih t2 (formed_setIVs h h2) x2.1 (by rw [h3, ← e])

theorem formed_decLoop (py3 : Bool) {mode : Nat} {iv q k1 k2 k3 : List Nat} (bs : List (List Nat)) (t t' : MTriple) (h : Formed mode iv q k1 k2 k3 t) (r : List Nat)
    (e : t.decLoop py3 bs = .ok (r, t')) : Formed mode iv q k1 k2 k3 t' := by
  induction bs generalizing t r with
  | nil => rw [MTriple.decLoop] at e; injection e with e; injection e with _ e; subst e; exact h
  | cons x xs ih =>
    rw [MTriple.decLoop] at e
    simp only [bind, Except.bind, pure, Except.pure] at e
    split at e
    · cases e
    split at e
    · cases e
    split at e
    · cases e
    split at e
    · cases e
    next t2 h2 =>
    split at e
    · cases e
    next x2 h3 =>
    injection e with e
    injection e with _ e
    exact ih t2 (formed_setIVs h h2) x2.1 (by rw [h3, ← e])

theorem formed_used (py3 : Bool) {mode : Nat} {iv q k1 k2 k3 : List Nat} {t0 t : MTriple} (h0 : Formed mode iv q k1 k2 k3 t0) (h : UsedM py3 t0 t) :
    Formed mode iv q k1 k2 k3 t := by
  induction h with
  | new => exact h0
  | raised v1 v2 v3 _ ih =>
    obtain ⟨u1, u2, u3, rfl⟩ := ih
    exact ⟨v1, v2, v3, rfl⟩
  | encrypt _ e ih =>
    unfold MTriple.encrypt at e
    simp only [bind, Except.bind, pure, Except.pure] at e
    split at e
    · cases e
    split at e
    · split at e
      · cases e
      next t2 h2 => exact formed_encLoop py3 _ _ _ (formed_setIVs ih h2) _ e
    · split at e
      · cases e
      split at e
      · cases e
      split at e
      · cases e
      injection e with e
      injection e with _ e
      subst e
      exact ih
  | decrypt _ e ih =>
    unfold MTriple.decrypt at e
    simp only [bind, Except.bind, pure, Except.pure] at e
    split at e
    · split at e
      · cases e
      next t2 h2 =>
      split at e
      · cases e
      next x h3 =>
      split at e
      · cases e
      injection e with e
      injection e with _ e
      subst e
      exact formed_decLoop py3 _ _ _ (formed_setIVs ih h2) x.1 h3
    · split at e
      · cases e
      split at e
      · cases e
      split at e
      · cases e
      split at e
      · cases e
      injection e with e
      injection e with _ e
      subst e
      exact ih

theorem formed_new (key iv q : List Nat) (mode : Nat) (hk : key.length = 16 ∨ key.length = 24) (hiv : IsBlock iv) (t0 : MTriple)
    (h0 : MTriple.new key mode iv q 1 = .ok t0) : Formed mode iv q (key.take 8) ((key.drop 8).take 8) (third key) t0 := by
  have hne := iv_block_ne iv hiv
  unfold MTriple.new at h0
  rw [if_neg (by rintro ⟨_, h⟩; exact absurd h (by decide)), if_neg (fun h => h.2 hiv.1), if_neg (by omega)] at h0
  simp only at h0
  rw [if_neg (show ¬ (mode = CBC ∧ iv = []) from fun h => hne h.2), if_neg (show ¬ (mode = CBC ∧ iv.length ≠ 8) from fun h => h.2 hiv.1)] at h0
  rw [newM (key.take 8) iv q mode (by rw [List.length_take]; omega) hiv, newM ((key.drop 8).take 8) iv q mode (by rw [List.length_take, List.length_drop]; omega) hiv] at h0
  refine ⟨iv, iv, iv, ?_⟩
  unfold third
  by_cases h16 : key.length = 16
  · simp only [bind, Except.bind, pure, Except.pure, if_pos h16] at h0
    injection h0 with h0
    rw [if_pos h16, ← h0]
    rfl
  · rw [newM (key.drop 16) iv q mode (by rw [List.length_drop]; omega) hiv] at h0
    simp only [bind, Except.bind, pure, Except.pure, if_neg h16] at h0
    injection h0 with h0
    rw [if_neg h16, ← h0]
    rfl

/-- The one-byte model encrypts blocks to the same bytes. -/
theorem plain_cipherText (key iv : List Nat) (mode : Nat) (hmode : mode = 0 ∨ mode = 1) (hk : key.length = 16 ∨ key.length = 24) (hiv : IsBlock iv)
    (bs : List (List Nat)) (hb : ∀ x ∈ bs, IsBlock x) (u0 u : Triple) (h0 : Triple.new key mode iv none 1 = .ok u0) (h : Used u0 u) :
    ∃ u', u.encrypt bs.flatten none none = .ok (cipherText mode iv (key.take 8) ((key.drop 8).take 8) (third key) bs, u') := by
  have hl := triple_like key mode iv 1 hk hiv.1 u0 u h0 h
  have := like_encrypt u _ _ _ _ hl bs hb _ none none (padData_none _ rfl _ (flatten_mod8 bs hb))
  unfold cipherText
  rcases hmode with rfl | rfl
  · rw [if_neg (by decide)]; exact this.1 (by show (0 : Nat) ≠ 1; decide)
  · rw [if_pos rfl]; exact this.2 rfl hiv

/-- C101. triple_des objects, after any history. A message that is not whole blocks is filled up with the pad in force. If that gives whole blocks,
what is encrypted is the outcome, as an object without a pad does it. If not, the object's own pad comes in: in ECB mode, and in CBC mode if it has one
byte, the outcome filled up again with it is encrypted if that gives whole blocks; in CBC mode with a pad of two bytes or more ValueError is raised even
then. Without whole blocks IndexError is raised (TypeError by Python 2 in CBC mode), without a pad ValueError. -/
theorem C101_triple_encrypt (py3 : Bool) (key iv q p m : List Nat) (mode : Nat) (hmode : mode = 0 ∨ mode = 1) (hk : key.length = 16 ∨ key.length = 24)
    (hiv : IsBlock iv) (hq : ∀ x ∈ q, x < 256) (hp : ∀ x ∈ p, x < 256) (hx : ∀ x ∈ m, x < 256) (h8 : m.length % 8 ≠ 0)
    (pm : Option Nat) (hpm : pm = none ∨ pm = some 1) (t0 t : MTriple) (h0 : MTriple.new key mode iv q 1 = .ok t0) (h : UsedM py3 t0 t)
    (u0 u : Triple) (hu0 : Triple.new key mode iv none 1 = .ok u0) (hu : Used u0 u) (T : List Nat) (hT : T = topUp (padInForce p q) m) :
    (padInForce p q = [] → t.encrypt py3 m p pm = .error .valueError) ∧
    (padInForce p q ≠ [] → T.length % 8 = 0 → ∃ c t' u', t.encrypt py3 m p pm = .ok (c, t') ∧ u.encrypt T none none = .ok (c, u')) ∧
    (padInForce p q ≠ [] → T.length % 8 ≠ 0 → q = [] → t.encrypt py3 m p pm = .error .valueError) ∧
    (padInForce p q ≠ [] → T.length % 8 ≠ 0 → q ≠ [] → (topUp q T).length % 8 ≠ 0 →
      t.encrypt py3 m p pm = .error (if mode = 1 ∧ py3 = false then .typeError else .indexError)) ∧
    (padInForce p q ≠ [] → T.length % 8 ≠ 0 → q ≠ [] → (topUp q T).length % 8 = 0 → (mode = 0 ∨ q.length = 1) →
      ∃ c t' u', t.encrypt py3 m p pm = .ok (c, t') ∧ u.encrypt (topUp q T) none none = .ok (c, u')) ∧
    (padInForce p q ≠ [] → T.length % 8 ≠ 0 → q ≠ [] → (topUp q T).length % 8 = 0 → mode = 1 → 2 ≤ q.length → t.encrypt py3 m p pm = .error .valueError) := by
  obtain ⟨v1, v2, v3, rfl⟩ := formed_used py3 (formed_new key iv q mode hk hiv t0 h0) h
  have hpd := padDataM_normal q p m pm hpm
  rw [← hT] at hpd
  have hPb : ∀ x ∈ padInForce p q, x < 256 := by unfold padInForce; split <;> assumption
  have hTb : ∀ x ∈ T, x < 256 := by rw [hT]; exact topUp_bytes _ m hPb hx
  have hTq := topUp_bytes q T hq hTb
  refine ⟨?_, ?_, ?_, ?_, ?_, ?_⟩
  · intro hP
    rw [if_pos ⟨h8, hP⟩] at hpd
    unfold MTriple.encrypt
    simp only [bind, Except.bind]
    rw [show padDataM (mtriple mode iv q _ _ _ v1 v2 v3).padding (mtriple mode iv q _ _ _ v1 v2 v3).padmode m p pm = _ from hpd]
  · intro hP ht
    rw [if_neg (fun h => hP h.2)] at hpd
    obtain ⟨bs, rfl, hb⟩ := exists_blocks T ht hTb
    obtain ⟨w1, w2, w3, e⟩ := mtriple_encrypt py3 mode hmode iv q _ _ _ v1 v2 v3 hiv bs hb m p pm hpd
    obtain ⟨u', e'⟩ := plain_cipherText key iv mode hmode hk hiv bs hb u0 u hu0 hu
    exact ⟨_, _, u', e, e'⟩
  · intro hP ht hqe
    rw [if_neg (fun h => hP h.2)] at hpd
    rcases hmode with rfl | rfl
    · exact (mtriple_encrypt_short_ecb py3 iv q _ _ _ v1 v2 v3 hq m p T hTb ht pm hpd).1 hqe
    · exact (mtriple_encrypt_short_cbc py3 iv q _ _ _ v1 v2 v3 hiv hq m p T hTb ht pm hpd).1 hqe
  · intro hP ht hqe ht2
    rw [if_neg (fun h => hP h.2)] at hpd
    rcases hmode with rfl | rfl
    · rw [(mtriple_encrypt_short_ecb py3 iv q _ _ _ v1 v2 v3 hq m p T hTb ht pm hpd).2.1 hqe ht2, if_neg (by simp)]
    · rw [(mtriple_encrypt_short_cbc py3 iv q _ _ _ v1 v2 v3 hiv hq m p T hTb ht pm hpd).2.1 hqe ht2]
      cases py3
      · rw [if_neg (by decide), if_pos ⟨rfl, rfl⟩]
      · rw [if_pos rfl, if_neg (by simp)]
  · intro hP ht hqe ht2 hone
    rw [if_neg (fun h => hP h.2)] at hpd
    obtain ⟨bs, hbs, hb⟩ := exists_blocks (topUp q T) ht2 hTq
    obtain ⟨u', e'⟩ := plain_cipherText key iv mode hmode hk hiv bs hb u0 u hu0 hu
    rw [hbs] at e'
    by_cases hm : mode = 0
    · subst hm
      exact ⟨_, _, u', (mtriple_encrypt_short_ecb py3 iv q _ _ _ v1 v2 v3 hq m p T hTb ht pm hpd).2.2 bs hqe hb hbs.symm, e'⟩
    · have hm1 : mode = 1 := by rcases hmode with h | h; exact absurd h hm; exact h
      subst hm1
      obtain ⟨w1, w2, w3, e⟩ := (mtriple_encrypt_short_cbc py3 iv q _ _ _ v1 v2 v3 hiv hq m p T hTb ht pm hpd).2.2.2 bs
        (by rcases hone with h | h; exact absurd h (by decide); exact h) hb hbs.symm
      exact ⟨_, _, u', e, e'⟩
  · intro hP ht hqe ht2 hm hq2
    rw [if_neg (fun h => hP h.2)] at hpd
    subst hm
    exact (mtriple_encrypt_short_cbc py3 iv q _ _ _ v1 v2 v3 hiv hq m p T hTb ht pm hpd).2.2.1 hq2 ht2

/-- C101. Nor does a message come back from a triple_des object: not whole blocks and encrypted with a pad of two bytes or more, every later
decryption gives it followed by at least one more byte. -/
theorem C101_triple_never_restored (py3 : Bool) (key iv q p p' m : List Nat) (mode : Nat) (hmode : mode = 0 ∨ mode = 1) (hk : key.length = 16 ∨ key.length = 24)
    (hiv : IsBlock iv) (hq : ∀ x ∈ q, x < 256) (hp : ∀ x ∈ p, x < 256) (hx : ∀ x ∈ m, x < 256) (h8 : m.length % 8 ≠ 0) (h2 : 2 ≤ (padInForce p q).length)
    (pm pm' : Option Nat) (hpm : pm = none ∨ pm = some 1) (hpm' : pm' = none ∨ pm' = some 1)
    (t0 t t1 t' : MTriple) (h0 : MTriple.new key mode iv q 1 = .ok t0) (h : UsedM py3 t0 t) (h' : UsedM py3 t0 t')
    (c : List Nat) (hc : t.encrypt py3 m p pm = .ok (c, t1)) :
    ∃ x t3, x ≠ [] ∧ t'.decrypt py3 c p' pm' = .ok (m ++ x, t3) := by
  obtain ⟨v1, v2, v3, rfl⟩ := formed_used py3 (formed_new key iv q mode hk hiv t0 h0) h
  obtain ⟨w1, w2, w3, rfl⟩ := formed_used py3 (formed_new key iv q mode hk hiv t0 h0) h'
  generalize key.take 8 = k1 at *
  generalize (key.drop 8).take 8 = k2 at *
  generalize third key = k3 at *
  have hP : padInForce p q ≠ [] := by intro h; rw [h] at h2; simp at h2
  have hpd := padDataM_normal q p m pm hpm
  rw [if_neg (fun h => hP h.2)] at hpd
  have hPb : ∀ x ∈ padInForce p q, x < 256 := by unfold padInForce; split <;> assumption
  have hTb : ∀ x ∈ topUp (padInForce p q) m, x < 256 := topUp_bytes _ m hPb hx
  have hl1 := topUp_length (padInForce p q) m h8
  have h3 : (8 - m.length % 8) * 2 ≤ (8 - m.length % 8) * (padInForce p q).length := Nat.mul_le_mul_left _ h2
  obtain ⟨y, hy⟩ := topUp_prefix (padInForce p q) m
  generalize topUp (padInForce p q) m = T at *
  have hTq := topUp_bytes q T hq hTb
  have fin : ∀ bs : List (List Nat), ∀ y, bs.flatten = m ++ y → (∀ b ∈ bs, IsBlock b) → m.length + (8 - m.length % 8) * 2 ≤ bs.flatten.length →
      c = cipherText mode iv k1 k2 k3 bs → ∃ x t3, x ≠ [] ∧ (mtriple mode iv q k1 k2 k3 w1 w2 w3).decrypt py3 c p' pm' = .ok (m ++ x, t3) := by
    intro bs y hbs hb htl hce
    have ht8 := flatten_mod8 bs hb
    have hyl : bs.flatten.length = m.length + y.length := by rw [hbs, List.length_append]
    obtain ⟨z1, z2, z3, e⟩ := mtriple_back py3 mode hmode iv q k1 k2 k3 w1 w2 w3 hiv bs hb (by rintro rfl; simp at htl; omega) p' pm' hpm'
    rw [hce, e]
    refine ⟨y.take (y.length - 8) ++ rstripSet (bs.flatten.drop (bs.flatten.length - 8)) (padInForce p' q), mtriple mode iv q k1 k2 k3 z1 z2 z3, ?_, ?_⟩
    · intro h
      have := congrArg List.length h
      rw [List.length_append, List.length_take] at this
      simp only [List.length_nil] at this
      omega
    · rw [← List.append_assoc]
      congr 3
      rw [hbs, List.take_append, List.length_append, List.take_of_length_le (by omega)]
      congr 2
      omega
  by_cases ht : T.length % 8 = 0
  · obtain ⟨bs, rfl, hb⟩ := exists_blocks T ht hTb
    obtain ⟨z1, z2, z3, e⟩ := mtriple_encrypt py3 mode hmode iv q k1 k2 k3 v1 v2 v3 hiv bs hb m p pm hpd
    rw [e] at hc
    injection hc with hc
    injection hc with hc _
    exact fin bs y hy hb (by omega) hc.symm
  · obtain ⟨y2, hy2⟩ := topUp_prefix q T
    by_cases ht2 : (topUp q T).length % 8 = 0
    · obtain ⟨bs, hbs, hb⟩ := exists_blocks (topUp q T) ht2 hTq
      have go : c = cipherText mode iv k1 k2 k3 bs → _ := fin bs (y ++ y2) (by rw [hbs, hy2, hy, List.append_assoc]) hb (by rw [hbs, hy2, List.length_append]; omega)
      rcases hmode with rfl | rfl
      · have hs := mtriple_encrypt_short_ecb py3 iv q k1 k2 k3 v1 v2 v3 hq m p T hTb ht pm hpd
        by_cases hqe : q = []
        · rw [hs.1 hqe] at hc; cases hc
        · rw [hs.2.2 bs hqe hb hbs.symm] at hc
          injection hc with hc
          injection hc with hc _
          exact go hc.symm
      · have hs := mtriple_encrypt_short_cbc py3 iv q k1 k2 k3 v1 v2 v3 hiv hq m p T hTb ht pm hpd
        by_cases hqe : q = []
        · rw [hs.1 hqe] at hc; cases hc
        by_cases hq1 : q.length = 1
        · obtain ⟨z1, z2, z3, e⟩ := hs.2.2.2 bs hq1 hb hbs.symm
          rw [e] at hc
          injection hc with hc
          injection hc with hc _
          exact go hc.symm
        · have := List.length_pos_iff.2 hqe
          rw [hs.2.2.1 (by omega) ht2] at hc; cases hc
    · rcases hmode with rfl | rfl
      · have hs := mtriple_encrypt_short_ecb py3 iv q k1 k2 k3 v1 v2 v3 hq m p T hTb ht pm hpd
        by_cases hqe : q = []
        · rw [hs.1 hqe] at hc; cases hc
        · rw [hs.2.1 hqe ht2] at hc; cases hc
      · have hs := mtriple_encrypt_short_cbc py3 iv q k1 k2 k3 v1 v2 v3 hiv hq m p T hTb ht pm hpd
        by_cases hqe : q = []
        · rw [hs.1 hqe] at hc; cases hc
        · rw [hs.2.1 hqe ht2] at hc; cases hc

/-- A pad of three bytes in CBC mode: the second filling of a two-byte message gives whole blocks, and still ValueError; in ECB mode it is encrypted. -/
example : ∃ t t' r, MTriple.new [1, 2, 3, 4, 5, 6, 7, 8, 8, 7, 6, 5, 4, 3, 2, 1] 1 [0, 0, 0, 0, 0, 0, 0, 0] [97, 98, 99] 1 = .ok t ∧
    t.encrypt true [1, 2] [] none = .error .valueError ∧
    MTriple.new [1, 2, 3, 4, 5, 6, 7, 8, 8, 7, 6, 5, 4, 3, 2, 1] 0 [0, 0, 0, 0, 0, 0, 0, 0] [97, 98, 99] 1 = .ok t' ∧
    t'.encrypt true [1, 2] [] none = .ok r ∧ r.1.length = 32 ∧ padInForce [] [97, 98, 99] = [97, 98, 99] := by
  refine ⟨_, _, _, rfl, rfl, rfl, rfl, rfl, rfl⟩

end Verif.Props
