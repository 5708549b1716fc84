import Verif.Model.DESFull
/-! Lemmas on the full model of pyDes objects: what changes in a call, and objects that behave alike. -/
namespace Verif.Props
open Verif.Py Verif.Model Verif.Model.PyDes

/-- Calls that set something: the key, the mode, the padding, the padding mode or the initial vector. -/
def CallF.sets : CallF → Bool
  | .setKey _ | .setMode _ | .setPadding _ | .setPadMode _ | .setIV _ => true
  | _ => false

namespace DF

/-! ### Only inner initial vectors change -/

/-- `d'` is `d` with some initial vector. -/
def OnlyIV (d d' : FDes) : Prop := ∃ v, d' = ⟨{ d.base with iv := v }, d.key, d.Kn⟩

theorem OnlyIV.refl (d : FDes) : OnlyIV d d := ⟨d.base.iv, rfl⟩
theorem OnlyIV.trans {a b c : FDes} (h : OnlyIV a b) (h' : OnlyIV b c) : OnlyIV a c := by
  obtain ⟨v, rfl⟩ := h; obtain ⟨w, rfl⟩ := h'; exact ⟨w, rfl⟩

/-- `t'` is `t` with some initial vectors in the inner objects. -/
structure OnlyIVs (t t' : FTriple) : Prop where
  base : t'.base = t.base
  key : t'.key = t.key
  k1 : OnlyIV t.key1 t'.key1
  k2 : OnlyIV t.key2 t'.key2
  k3 : OnlyIV t.key3 t'.key3

theorem OnlyIVs.refl (t : FTriple) : OnlyIVs t t := ⟨rfl, rfl, .refl _, .refl _, .refl _⟩
theorem OnlyIVs.trans {a b c : FTriple} (h : OnlyIVs a b) (h' : OnlyIVs b c) : OnlyIVs a c :=
  ⟨h'.base.trans h.base, h'.key.trans h.key, h.k1.trans h'.k1, h.k2.trans h'.k2, h.k3.trans h'.k3⟩

theorem setIV_only (py3 : Bool) (d : FDes) (iv : Option Data) : OnlyIV d (d.setIV py3 iv).2 := by
  unfold FDes.setIV FBase.setIV
  cases iv with
  | none => exact .refl _
  | some x =>
    simp only
    split
    · exact .refl _
    · split
      · exact .refl _
      · exact ⟨_, rfl⟩

theorem setIVs_only (py3 : Bool) (t : FTriple) (iv : Option Data) : OnlyIVs t (t.setIVs py3 iv).2 := by
  have h1 := setIV_only py3 t.key1 iv
  have h2 := setIV_only py3 t.key2 iv
  have h3 := setIV_only py3 t.key3 iv
  unfold FTriple.setIVs
  split
  · rename_i e; rw [e] at h1; exact ⟨rfl, rfl, h1, .refl _, .refl _⟩
  · rename_i e; rw [e] at h1
    split
    · rename_i e; rw [e] at h2; exact ⟨rfl, rfl, h1, h2, .refl _⟩
    · rename_i e; rw [e] at h2
      split
      · rename_i e; rw [e] at h3; exact ⟨rfl, rfl, h1, h2, h3⟩
      · rename_i e; rw [e] at h3; exact ⟨rfl, rfl, h1, h2, h3⟩

theorem encLoop_only (py3 : Bool) (bs : List (List Nat)) : ∀ t : FTriple, OnlyIVs t (t.encLoop py3 bs).2 := by
  induction bs with
  | nil => exact OnlyIVs.refl
  | cons b bs ih =>
    intro t
    unfold FTriple.encLoop
    split
    · exact .refl _
    · rename_i block _
      have h1 := setIVs_only py3 t (some (.bytes block))
      split
      · rename_i e; rw [e] at h1; exact h1
      · rename_i t1 e; rw [e] at h1
        have h2 := ih t1
        split
        · rename_i e; rw [e] at h2; exact h1.trans h2
        · rename_i e; rw [e] at h2; exact h1.trans h2

theorem decLoop_only (py3 : Bool) (bs : List (List Nat)) : ∀ t : FTriple, OnlyIVs t (t.decLoop py3 bs).2 := by
  induction bs with
  | nil => exact OnlyIVs.refl
  | cons b bs ih =>
    intro t
    unfold FTriple.decLoop
    split
    · exact .refl _
    · have h1 := setIVs_only py3 t (some (.bytes b))
      split
      · rename_i e; rw [e] at h1; exact h1
      · rename_i t1 e; rw [e] at h1
        have h2 := ih t1
        split
        · rename_i e; rw [e] at h2; exact h1.trans h2
        · rename_i e; rw [e] at h2; exact h1.trans h2

theorem encrypt_only (py3 : Bool) (t : FTriple) (m : Data) (pad : Option Data) (pm : Option Nat) : OnlyIVs t (t.encrypt py3 m pad pm).2 := by
  unfold FTriple.encrypt
  split
  · exact .refl _
  · split
    · exact .refl _
    · split
      · exact .refl _
      · rename_i m' _
        split
        · have h1 := setIVs_only py3 t t.base.iv
          split
          · rename_i e; rw [e] at h1; exact h1
          · rename_i t1 e; rw [e] at h1
            have h2 := encLoop_only py3 (blocks m') t1
            split
            · rename_i e; rw [e] at h2; exact h1.trans h2
            · rename_i e; rw [e] at h2; exact h1.trans h2
        · split
          · exact .refl _
          · exact .refl _

theorem decrypt_only (py3 : Bool) (t : FTriple) (m : Data) (pad : Option Data) (pm : Option Nat) : OnlyIVs t (t.decrypt py3 m pad pm).2 := by
  unfold FTriple.decrypt
  split
  · exact .refl _
  · rename_i m' _
    split
    · exact .refl _
    · split
      · have h1 := setIVs_only py3 t t.base.iv
        split
        · rename_i e; rw [e] at h1; exact h1
        · rename_i t1 e; rw [e] at h1
          have h2 := decLoop_only py3 (blocks m') t1
          split
          · rename_i e; rw [e] at h2; exact h1.trans h2
          · rename_i e; rw [e] at h2; exact h1.trans h2
      · split
        · exact .refl _
        · exact .refl _

/-! ### Objects that behave alike -/

/-- Two arguments with the same characters that the guard treats alike. -/
def Same (py3 : Bool) (d d' : Data) : Prop := d.chars = d'.chars ∧ d.guard py3 = d'.guard py3

/-- The same for arguments that may be None. -/
def SameO (py3 : Bool) : Option Data → Option Data → Prop
  | none, none => True
  | some d, some d' => Same py3 d d'
  | _, _ => False

theorem SameO.refl (py3 : Bool) (x : Option Data) : SameO py3 x x := by
  cases x <;> simp [SameO, Same]

theorem SameO.chars {py3 : Bool} {x y : Option Data} (h : SameO py3 x y) : optChars x = optChars y := by
  cases x <;> cases y <;> simp_all [SameO, Same, optChars]

/-- The same settings. -/
structure BaseSame (py3 : Bool) (b b' : FBase) : Prop where
  mode : b.mode = b'.mode
  iv : SameO py3 b.iv b'.iv
  padding : SameO py3 b.padding b'.padding
  padmode : b.padmode = b'.padmode

theorem BaseSame.refl (py3 : Bool) (b : FBase) : BaseSame py3 b b := ⟨rfl, .refl _ _, .refl _ _, rfl⟩

/-- An inner object works with the settings of its owner (its initial vector apart). -/
def InnerOf (b : FBase) (d : FDes) : Prop := d.base.mode = b.mode ∧ optChars d.base.padding = optChars b.padding

/-- Two single objects alike. -/
structure SimD (py3 : Bool) (d d' : FDes) : Prop where
  base : BaseSame py3 d.base d'.base
  key : d.key = d'.key
  kn : d.Kn = d'.Kn

/-- Two triple objects alike: all but the initial vectors of the inner objects. -/
structure SimT (py3 : Bool) (t t' : FTriple) : Prop where
  base : BaseSame py3 t.base t'.base
  key : t.key = t'.key
  in1 : InnerOf t.base t.key1
  in2 : InnerOf t.base t.key2
  in3 : InnerOf t.base t.key3
  in1' : InnerOf t'.base t'.key1
  in2' : InnerOf t'.base t'.key2
  in3' : InnerOf t'.base t'.key3
  kn1 : t.key1.Kn = t'.key1.Kn
  kn2 : t.key2.Kn = t'.key2.Kn
  kn3 : t.key3.Kn = t'.key3.Kn

theorem crypt_congr (py3 : Bool) (d d' : FDes) (hm : d.base.mode = d'.base.mode) (hp : optChars d.base.padding = optChars d'.base.padding) (hk : d.Kn = d'.Kn)
    (hi : d.base.mode = CBC → optChars d.base.iv = optChars d'.base.iv) (m : List Nat) (ty : Nat) : d.crypt py3 m ty = d'.crypt py3 m ty := by
  have hloop : ∀ (bs : List PyDes.Bits) (i j : PyDes.Bits), cryptLoopT d'.Kn ty false i bs = cryptLoopT d'.Kn ty false j bs := by
    intro bs
    induction bs with
    | nil => intro i j; rfl
    | cons b bs ih =>
      intro i j
      simp only [cryptLoopT, Bool.false_eq_true, if_false]
      rw [ih i j]
  unfold FDes.crypt
  rw [hp, hk, hm]
  by_cases hc : d'.base.mode = CBC
  · rw [hi (hm.trans hc)]
  · simp only [hc, false_and, if_false, decide_false]
    have hl := fun bs => hloop bs (stringToBits (optChars d.base.iv)) (stringToBits (optChars d'.base.iv))
    simp only [hl]

theorem crypt3_congr (py3 : Bool) {a b c a' b' c' : FDes} (ha : ∀ m ty, a.crypt py3 m ty = a'.crypt py3 m ty) (hb : ∀ m ty, b.crypt py3 m ty = b'.crypt py3 m ty)
    (hc : ∀ m ty, c.crypt py3 m ty = c'.crypt py3 m ty) (f : Nat) (m : List Nat) : crypt3 py3 a b c f m = crypt3 py3 a' b' c' f m := by
  unfold crypt3
  rw [ha]
  split
  · rfl
  · rw [hb]
    split
    · rfl
    · exact hc _ _

/-- The bytes of an initial vector that `setIV` accepts. -/
def ivOf (py3 : Bool) : Option Data → Option (List Nat)
  | none => none
  | some d => if d.chars.length = 8 then (match d.guard py3 with | .ok v => some v | .error _ => none) else none

theorem ivOf_same {py3 : Bool} {x y : Option Data} (h : SameO py3 x y) : ivOf py3 x = ivOf py3 y := by
  cases x <;> cases y <;> simp_all [SameO, Same, ivOf]

theorem guard_cases (py3 : Bool) (x : Data) : x.guard py3 = .error .valueError ∨ x.guard py3 = .ok x.chars := by
  unfold Data.guard
  cases x with
  | bytes b => exact .inr rfl
  | text s =>
    by_cases hh : py3 = true ∧ s.all (· < 128) = true
    · exact .inr (if_pos hh)
    · exact .inl (if_neg hh)

theorem setIVb_eq (py3 : Bool) (b : FBase) (x : Option Data) :
    b.setIV py3 x = match ivOf py3 x with
      | none => (.error .valueError, b)
      | some v => (.ok (), { b with iv := some (.bytes v) }) := by
  unfold FBase.setIV ivOf
  cases x with
  | none => rfl
  | some d =>
    simp only
    by_cases hl : d.chars.length = 8
    · have hn : ¬ (d.chars = [] ∨ d.chars.length ≠ 8) := by
        intro h
        rcases h with h | h
        · rw [h] at hl; cases hl
        · exact h hl
      rw [if_neg hn, if_pos hl]
      rcases guard_cases py3 d with e | e <;> simp only [e]
    · rw [if_pos (show d.chars = [] ∨ d.chars.length ≠ 8 from .inr hl), if_neg hl]

/-- A single object with another initial vector. -/
def withIV (d : FDes) (v : List Nat) : FDes := ⟨{ d.base with iv := some (.bytes v) }, d.key, d.Kn⟩

theorem setIV_eq (py3 : Bool) (d : FDes) (x : Option Data) :
    d.setIV py3 x = match ivOf py3 x with
      | none => (.error .valueError, d)
      | some v => (.ok (), withIV d v) := by
  unfold FDes.setIV
  rw [setIVb_eq]
  cases ivOf py3 x <;> rfl

/-- A triple object with other inner initial vectors. -/
def withIVs (t : FTriple) (v : List Nat) : FTriple := ⟨t.base, t.key, withIV t.key1 v, withIV t.key2 v, withIV t.key3 v⟩

theorem setIVs_eq (py3 : Bool) (t : FTriple) (x : Option Data) :
    t.setIVs py3 x = match ivOf py3 x with
      | none => (.error .valueError, t)
      | some v => (.ok (), withIVs t v) := by
  unfold FTriple.setIVs
  rw [setIV_eq, setIV_eq, setIV_eq]
  cases ivOf py3 x <;> rfl

/-- Inner objects alike, initial vectors included when they are used. -/
structure SimI (py3 : Bool) (t t' : FTriple) : Prop extends SimT py3 t t' where
  c1 : t.base.mode = CBC → optChars t.key1.base.iv = optChars t'.key1.base.iv
  c2 : t.base.mode = CBC → optChars t.key2.base.iv = optChars t'.key2.base.iv
  c3 : t.base.mode = CBC → optChars t.key3.base.iv = optChars t'.key3.base.iv

theorem SimT.withIVs {py3 : Bool} {t t' : FTriple} (h : SimT py3 t t') (v : List Nat) : SimI py3 (withIVs t v) (withIVs t' v) :=
  { base := h.base, key := h.key, in1 := h.in1, in2 := h.in2, in3 := h.in3, in1' := h.in1', in2' := h.in2', in3' := h.in3',
    kn1 := h.kn1, kn2 := h.kn2, kn3 := h.kn3, c1 := fun _ => rfl, c2 := fun _ => rfl, c3 := fun _ => rfl }

theorem SimI.crypts {py3 : Bool} {t t' : FTriple} (h : SimI py3 t t') (m : List Nat) (ty : Nat) :
    t.key1.crypt py3 m ty = t'.key1.crypt py3 m ty ∧ t.key2.crypt py3 m ty = t'.key2.crypt py3 m ty ∧ t.key3.crypt py3 m ty = t'.key3.crypt py3 m ty := by
  have hp := h.base.padding.chars
  have hm := h.base.mode
  refine ⟨crypt_congr py3 _ _ ?_ ?_ h.kn1 ?_ m ty, crypt_congr py3 _ _ ?_ ?_ h.kn2 ?_ m ty, crypt_congr py3 _ _ ?_ ?_ h.kn3 ?_ m ty⟩
  · rw [h.in1.1, h.in1'.1, hm]
  · rw [h.in1.2, h.in1'.2, hp]
  · rw [h.in1.1]; exact h.c1
  · rw [h.in2.1, h.in2'.1, hm]
  · rw [h.in2.2, h.in2'.2, hp]
  · rw [h.in2.1]; exact h.c2
  · rw [h.in3.1, h.in3'.1, hm]
  · rw [h.in3.2, h.in3'.2, hp]
  · rw [h.in3.1]; exact h.c3

theorem encLoop_congr (py3 : Bool) (bs : List (List Nat)) : ∀ t t' : FTriple, SimI py3 t t' →
    (t.encLoop py3 bs).1 = (t'.encLoop py3 bs).1 ∧ SimT py3 (t.encLoop py3 bs).2 (t'.encLoop py3 bs).2 := by
  induction bs with
  | nil => intro t t' h; exact ⟨rfl, h.toSimT⟩
  | cons b bs ih =>
    intro t t' h
    unfold FTriple.encLoop
    rw [crypt3_congr py3 (fun m ty => (h.crypts m ty).1) (fun m ty => (h.crypts m ty).2.1) (fun m ty => (h.crypts m ty).2.2)]
    cases crypt3 py3 t'.key1 t'.key2 t'.key3 0 b with
    | error e => exact ⟨rfl, h.toSimT⟩
    | ok block =>
      simp only [setIVs_eq]
      cases ivOf py3 (some (.bytes block)) with
      | none => exact ⟨rfl, h.toSimT⟩
      | some v =>
        simp only
        obtain ⟨i1, i2⟩ := ih _ _ (h.toSimT.withIVs v)
        revert i1 i2
        generalize (withIVs t v).encLoop py3 bs = p
        generalize (withIVs t' v).encLoop py3 bs = q
        rcases p with ⟨_ | _, _⟩ <;> rcases q with ⟨_ | _, _⟩ <;> intro i1 i2 <;> simp_all

theorem decLoop_congr (py3 : Bool) (bs : List (List Nat)) : ∀ t t' : FTriple, SimI py3 t t' →
    (t.decLoop py3 bs).1 = (t'.decLoop py3 bs).1 ∧ SimT py3 (t.decLoop py3 bs).2 (t'.decLoop py3 bs).2 := by
  induction bs with
  | nil => intro t t' h; exact ⟨rfl, h.toSimT⟩
  | cons b bs ih =>
    intro t t' h
    unfold FTriple.decLoop
    rw [crypt3_congr py3 (fun m ty => (h.crypts m ty).2.2) (fun m ty => (h.crypts m ty).2.1) (fun m ty => (h.crypts m ty).1)]
    cases crypt3 py3 t'.key3 t'.key2 t'.key1 1 b with
    | error e => exact ⟨rfl, h.toSimT⟩
    | ok block =>
      simp only [setIVs_eq]
      cases ivOf py3 (some (.bytes b)) with
      | none => exact ⟨rfl, h.toSimT⟩
      | some v =>
        simp only
        obtain ⟨i1, i2⟩ := ih _ _ (h.toSimT.withIVs v)
        revert i1 i2
        generalize (withIVs t v).decLoop py3 bs = p
        generalize (withIVs t' v).decLoop py3 bs = q
        rcases p with ⟨_ | _, _⟩ <;> rcases q with ⟨_ | _, _⟩ <;> intro i1 i2 <;> simp_all

theorem guardSome_same {py3 : Bool} {x y : Option Data} (h : SameO py3 x y) : guardSome py3 x = guardSome py3 y := by
  cases x <;> cases y <;> simp_all [SameO, Same, guardSome]

theorem padData_same {py3 : Bool} {b b' : FBase} (h : BaseSame py3 b b') (m : List Nat) (pad : Option Data) (pm : Option Nat) :
    b.padData m pad pm = b'.padData m pad pm := by
  unfold FBase.padData
  have hp := h.padding.chars
  rw [h.padmode]
  by_cases hn : optChars pad = []
  · simp only [hn, if_true, hp]
  · simp only [hn, if_false]

theorem unpadData_same {py3 : Bool} {b b' : FBase} (h : BaseSame py3 b b') (m : List Nat) (pad : Option Data) (pm : Option Nat) :
    b.unpadData m pad pm = b'.unpadData m pad pm := by
  unfold FBase.unpadData
  have hp := h.padding.chars
  rw [h.padmode]
  by_cases hn : optChars pad = []
  · simp only [hn, if_true, hp]
  · simp only [hn, if_false]

theorem unpadF_same {py3 : Bool} {b b' : FBase} (h : BaseSame py3 b b') (em : Data) (m : List Nat) (pad : Option Data) (pm : Option Nat) :
    unpadF b em m pad pm = unpadF b' em m pad pm := by
  unfold unpadF
  rw [unpadData_same h]

/-- In ECB mode the inner initial vectors are not used. -/
theorem SimT.ecb {py3 : Bool} {t t' : FTriple} (h : SimT py3 t t') (hc : t.base.mode ≠ CBC) : SimI py3 t t' :=
  { h with c1 := fun x => (hc x).elim, c2 := fun x => (hc x).elim, c3 := fun x => (hc x).elim }

theorem encrypt_congr {py3 : Bool} {t t' : FTriple} (h : SimT py3 t t') {m m' : Data} (hm : Same py3 m m') {pad pad' : Option Data} (hp : SameO py3 pad pad')
    (pm : Option Nat) : (t.encrypt py3 m pad pm).1 = (t'.encrypt py3 m' pad' pm).1 ∧ SimT py3 (t.encrypt py3 m pad pm).2 (t'.encrypt py3 m' pad' pm).2 := by
  unfold FTriple.encrypt
  rw [hm.2, guardSome_same hp]
  cases m'.guard py3 with
  | error e => exact ⟨rfl, h⟩
  | ok x =>
    simp only
    cases guardSome py3 pad' with
    | error e => exact ⟨rfl, h⟩
    | ok p =>
      simp only
      rw [padData_same h.base]
      cases t'.base.padData x p pm with
      | error e => exact ⟨rfl, h⟩
      | ok x =>
        simp only
        rw [← h.base.mode]
        by_cases hc : t.base.mode = CBC
        · rw [if_pos hc, if_pos hc, setIVs_eq, setIVs_eq, ivOf_same h.base.iv]
          cases ivOf py3 t'.base.iv with
          | none => exact ⟨rfl, h⟩
          | some v =>
            simp only
            obtain ⟨i1, i2⟩ := encLoop_congr py3 (blocks x) _ _ (h.withIVs v)
            revert i1 i2
            generalize (withIVs t v).encLoop py3 (blocks x) = p
            generalize (withIVs t' v).encLoop py3 (blocks x) = q
            rcases p with ⟨_ | _, _⟩ <;> rcases q with ⟨_ | _, _⟩ <;> intro i1 i2 <;> simp_all
        · rw [if_neg hc, if_neg hc]
          have hi := h.ecb hc
          rw [crypt3_congr py3 (fun m ty => (hi.crypts m ty).1) (fun m ty => (hi.crypts m ty).2.1) (fun m ty => (hi.crypts m ty).2.2)]
          cases crypt3 py3 t'.key1 t'.key2 t'.key3 0 x <;> exact ⟨rfl, h⟩

theorem decrypt_congr {py3 : Bool} {t t' : FTriple} (h : SimT py3 t t') {m m' : Data} (hm : Same py3 m m') {pad pad' : Option Data} (hp : SameO py3 pad pad')
    (pm : Option Nat) : (t.decrypt py3 m pad pm).1 = (t'.decrypt py3 m' pad' pm).1 ∧ SimT py3 (t.decrypt py3 m pad pm).2 (t'.decrypt py3 m' pad' pm).2 := by
  unfold FTriple.decrypt
  rw [hm.2, guardSome_same hp]
  cases m'.guard py3 with
  | error e => exact ⟨rfl, h⟩
  | ok x =>
    simp only
    cases guardSome py3 pad' with
    | error e => exact ⟨rfl, h⟩
    | ok p =>
      simp only
      rw [← h.base.mode]
      by_cases hc : t.base.mode = CBC
      · rw [if_pos hc, if_pos hc, setIVs_eq, setIVs_eq, ivOf_same h.base.iv]
        cases ivOf py3 t'.base.iv with
        | none => exact ⟨rfl, h⟩
        | some v =>
          simp only
          obtain ⟨i1, i2⟩ := decLoop_congr py3 (blocks x) _ _ (h.withIVs v)
          revert i1 i2
          generalize (withIVs t v).decLoop py3 (blocks x) = p
          generalize (withIVs t' v).decLoop py3 (blocks x) = q
          rcases p with ⟨_ | _, _⟩ <;> rcases q with ⟨_ | _, _⟩ <;> intro i1 i2
          · simp_all
          · simp_all
          · simp_all
          · simp only at i1 i2
            injection i1 with i1
            subst i1
            exact ⟨unpadF_same i2.base _ _ _ _, i2⟩
      · rw [if_neg hc, if_neg hc]
        have hi := h.ecb hc
        rw [crypt3_congr py3 (fun m ty => (hi.crypts m ty).2.2) (fun m ty => (hi.crypts m ty).2.1) (fun m ty => (hi.crypts m ty).1)]
        cases crypt3 py3 t'.key3 t'.key2 t'.key1 1 x with
        | error e => exact ⟨rfl, h⟩
        | ok r => exact ⟨unpadF_same h.base _ _ _ _, h⟩

/-! ### Setters -/

theorem Same.refl (py3 : Bool) (d : Data) : Same py3 d d := ⟨rfl, rfl⟩

/-- Arguments treated alike are equal, or both stand for the same bytes. -/
theorem Same.cases {py3 : Bool} {d d' : Data} (h : Same py3 d d') : d = d' ∨ (d.guard py3 = .ok d.chars ∧ d'.guard py3 = .ok d.chars) := by
  obtain ⟨h1, h2⟩ := h
  rcases guard_cases py3 d with e | e
  · rw [e] at h2
    cases d with
    | bytes b => cases e
    | text s =>
      cases d' with
      | bytes b => cases h2
      | text s' => simp only [Data.chars] at h1; subst h1; exact .inl rfl
  · exact .inr ⟨e, by rw [← h2, e]⟩

theorem slice_chars (d : Data) (i j : Nat) : (d.slice i j).chars = (d.chars.drop i).take (j - i) := by cases d <;> rfl

theorem slice_guard {py3 : Bool} {d : Data} (h : d.guard py3 = .ok d.chars) (i j : Nat) : (d.slice i j).guard py3 = .ok ((d.chars.drop i).take (j - i)) := by
  cases d with
  | bytes b => rfl
  | text s =>
    unfold Data.guard at h
    simp only at h
    by_cases hh : py3 = true ∧ s.all (· < 128) = true
    · simp only [Data.slice, Data.guard, Data.chars]
      rw [if_pos]
      refine ⟨hh.1, ?_⟩
      have := hh.2
      simp only [List.all_eq_true] at this ⊢
      intro x hx
      exact this x (List.mem_of_mem_drop (List.mem_of_mem_take hx))
    · rw [if_neg hh] at h; cases h

theorem Same.slice {py3 : Bool} {d d' : Data} (h : Same py3 d d') (i j : Nat) : Same py3 (d.slice i j) (d'.slice i j) := by
  refine ⟨by rw [slice_chars, slice_chars, h.1], ?_⟩
  rcases h.cases with rfl | ⟨h1, h2⟩
  · rfl
  · rw [slice_guard h1]
    rw [h.1] at h2 ⊢
    rw [slice_guard h2]

theorem guardIf_congr {py3 : Bool} {x y : Option Data} (h : SameO py3 x y) :
    (guardIf py3 x = .error .valueError ∧ guardIf py3 y = .error .valueError) ∨
    ∃ a b, guardIf py3 x = .ok a ∧ guardIf py3 y = .ok b ∧ SameO py3 a b ∧ optChars a = optChars x := by
  cases x with
  | none =>
    cases y with
    | none => exact .inr ⟨none, none, rfl, rfl, trivial, rfl⟩
    | some y => exact h.elim
  | some x =>
    cases y with
    | none => exact h.elim
    | some y =>
      obtain ⟨h1, h2⟩ := h
      unfold guardIf
      simp only [h1, h2]
      by_cases hn : y.chars = []
      · simp only [hn, if_true]
        exact .inr ⟨_, _, rfl, rfl, ⟨h1, h2⟩, rfl⟩
      · simp only [hn, if_false]
        rcases guard_cases py3 y with e | e
        · simp only [e]; exact .inl ⟨trivial, trivial⟩
        · simp only [e]; exact .inr ⟨_, _, rfl, rfl, Same.refl _ _, by show y.chars = x.chars; exact h1.symm⟩

theorem base_new_congr {py3 : Bool} (mode : Nat) {iv iv' pad pad' : Option Data} (hi : SameO py3 iv iv') (hp : SameO py3 pad pad') (pm : Option Nat) :
    (FBase.new py3 mode iv pad pm = .error .valueError ∧ FBase.new py3 mode iv' pad' pm = .error .valueError) ∨
    ∃ b b', FBase.new py3 mode iv pad pm = .ok b ∧ FBase.new py3 mode iv' pad' pm = .ok b' ∧ BaseSame py3 b b' ∧ b.mode = mode ∧
      optChars b.padding = optChars pad ∧ b.padmode = pm ∧ optChars b.iv = optChars iv := by
  unfold FBase.new
  rcases guardIf_congr hi with ⟨e1, e2⟩ | ⟨a, b, e1, e2, hab, hca⟩
  · rw [e1, e2]; exact .inl ⟨rfl, rfl⟩
  · rw [e1, e2]
    simp only
    rcases guardIf_congr hp with ⟨e3, e4⟩ | ⟨c, d, e3, e4, hcd, hcc⟩
    · rw [e3, e4]; exact .inl ⟨rfl, rfl⟩
    · rw [e3, e4]
      simp only [hab.chars, hcd.chars]
      split
      · exact .inl ⟨rfl, rfl⟩
      · split
        · exact .inl ⟨rfl, rfl⟩
        · exact .inr ⟨_, _, rfl, rfl, ⟨rfl, hab, hcd, rfl⟩, rfl, hcc, rfl, hca⟩

theorem des_new_congr {py3 : Bool} {key key' : Data} (hk : Same py3 key key') (mode : Nat) {iv iv' pad pad' : Option Data} (hi : SameO py3 iv iv') (hp : SameO py3 pad pad')
    (pm : Option Nat) :
    (FDes.new py3 key mode iv pad pm = .error .valueError ∧ FDes.new py3 key' mode iv' pad' pm = .error .valueError) ∨
    ∃ d d', FDes.new py3 key mode iv pad pm = .ok d ∧ FDes.new py3 key' mode iv' pad' pm = .ok d' ∧ SimD py3 d d' ∧ d.base.mode = mode ∧
      optChars d.base.padding = optChars pad ∧ key.guard py3 = .ok d.key ∧ d.Kn = createSubKeys d.key ∧ d.key.length = 8 := by
  unfold FDes.new
  rw [hk.1, hk.2]
  by_cases hl : key'.chars.length ≠ 8
  · rw [if_pos hl, if_pos hl]; exact .inl ⟨rfl, rfl⟩
  · rw [if_neg hl, if_neg hl]
    rcases base_new_congr mode hi hp pm with ⟨e1, e2⟩ | ⟨b, b', e1, e2, hb, h1, h2, _, _⟩
    · rw [e1, e2]; exact .inl ⟨rfl, rfl⟩
    · rw [e1, e2]
      simp only
      rcases guard_cases py3 key' with e | e
      · simp only [e]; exact .inl ⟨trivial, trivial⟩
      · simp only [e]; exact .inr ⟨_, _, rfl, rfl, ⟨hb, rfl, rfl⟩, h1, h2, rfl, rfl, Decidable.not_not.1 hl⟩

theorem setInner_congr {py3 : Bool} {t t' : FTriple} (hb : BaseSame py3 t.base t'.base) (hkey : t.key = t'.key) {k k' : Data} (hk : Same py3 k k')
    (hn : (t.setInner py3 k).1 = .ok () ∨ SimT py3 t t') :
    (t.setInner py3 k).1 = (t'.setInner py3 k').1 ∧ SimT py3 (t.setInner py3 k).2 (t'.setInner py3 k').2 := by
  have inner : ∀ i j, (FTriple.inner py3 t.base (k.slice i j) = .error .valueError ∧ FTriple.inner py3 t'.base (k'.slice i j) = .error .valueError) ∨
      ∃ d d', FTriple.inner py3 t.base (k.slice i j) = .ok d ∧ FTriple.inner py3 t'.base (k'.slice i j) = .ok d' ∧ d.Kn = d'.Kn ∧
        InnerOf t.base d ∧ InnerOf t'.base d' := by
    intro i j
    unfold FTriple.inner
    rw [← hb.mode, ← hb.padmode]
    rcases des_new_congr (hk.slice i j) t.base.mode hb.iv hb.padding t.base.padmode with h | ⟨d, d', e1, e2, hd, m1, p1, _, _, _⟩
    · exact .inl h
    · refine .inr ⟨d, d', e1, e2, hd.kn, ⟨m1, p1⟩, ?_, ?_⟩
      · rw [← hd.base.mode, m1, hb.mode]
      · rw [← hd.base.padding.chars, p1, hb.padding.chars]
  unfold FTriple.setInner at hn ⊢
  rcases inner 0 8 with ⟨e1, e2⟩ | ⟨a, a', e1, e2, ha, hia, hia'⟩
  · rw [e1] at hn; rw [e1, e2]
    rcases hn with hn | hn
    · cases hn
    · exact ⟨rfl, hn⟩
  · rw [e1] at hn; rw [e1, e2]
    simp only at hn ⊢
    rcases inner 8 16 with ⟨e1, e2⟩ | ⟨b, b', e1, e2, hbk, hib, hib'⟩
    · rw [e1] at hn; rw [e1, e2]
      rcases hn with hn | hn
      · cases hn
      · exact ⟨rfl, { hn with in1 := hia, in1' := hia', kn1 := ha }⟩
    · rw [e1] at hn; rw [e1, e2]
      simp only at hn ⊢
      have third : ∀ (l : Nat), ((if l = 16 then .ok a else FTriple.inner py3 t.base (k.slice 16 24)) = .error .valueError ∧
          (if l = 16 then .ok a' else FTriple.inner py3 t'.base (k'.slice 16 24)) = .error .valueError) ∨
          ∃ d d', (if l = 16 then .ok a else FTriple.inner py3 t.base (k.slice 16 24)) = .ok d ∧
            (if l = 16 then .ok a' else FTriple.inner py3 t'.base (k'.slice 16 24)) = .ok d' ∧ d.Kn = d'.Kn ∧ InnerOf t.base d ∧ InnerOf t'.base d' := by
        intro l
        by_cases hl : l = 16
        · rw [if_pos hl, if_pos hl]; exact .inr ⟨a, a', rfl, rfl, ha, hia, hia'⟩
        · rw [if_neg hl, if_neg hl]; exact inner 16 24
      rw [hk.1] at hn ⊢
      rcases third k'.chars.length with ⟨e1, e2⟩ | ⟨c, c', e1, e2, hc, hic, hic'⟩
      · rw [e1] at hn; rw [e1, e2]
        rcases hn with hn | hn
        · cases hn
        · exact ⟨rfl, { hn with in1 := hia, in1' := hia', kn1 := ha, in2 := hib, in2' := hib', kn2 := hbk }⟩
      · rw [e1] at hn; rw [e1, e2]
        simp only at hn ⊢
        rw [hk.2] at hn ⊢
        cases hg : k'.guard py3 with
        | error e =>
          exact ⟨rfl, { base := hb, key := hkey, in1 := hia, in1' := hia', kn1 := ha, in2 := hib, in2' := hib', kn2 := hbk, in3 := hic, in3' := hic', kn3 := hc }⟩
        | ok kk =>
          exact ⟨rfl, { base := hb, key := rfl, in1 := hia, in1' := hia', kn1 := ha, in2 := hib, in2' := hib', kn2 := hbk, in3 := hic, in3' := hic', kn3 := hc }⟩

theorem setKey_congr {py3 : Bool} {t t' : FTriple} (hb : BaseSame py3 t.base t'.base) (hkey : t.key = t'.key) {k k' : Data} (hk : Same py3 k k')
    (hn : (t.setKey py3 k).1 = .ok () ∨ SimT py3 t t') :
    (t.setKey py3 k).1 = (t'.setKey py3 k').1 ∧ SimT py3 (t.setKey py3 k).2 (t'.setKey py3 k').2 := by
  unfold FTriple.setKey at hn ⊢
  rw [hk.1] at hn ⊢
  by_cases hl : k'.chars.length ≠ 24 ∧ k'.chars.length ≠ 16
  · rw [if_pos hl] at hn; rw [if_pos hl, if_pos hl]
    rcases hn with hn | hn
    · cases hn
    · exact ⟨rfl, hn⟩
  · rw [if_neg hl] at hn; rw [if_neg hl, if_neg hl]
    have hdd : (t'.base.mode = CBC ∧ optChars t'.base.iv = []) ↔ (t.base.mode = CBC ∧ optChars t.base.iv = []) := by
      rw [hb.mode, hb.iv.chars]
    have hyy : (t'.base.mode = CBC ∧ (optChars t'.base.iv).length ≠ 8) ↔ (t.base.mode = CBC ∧ (optChars t.base.iv).length ≠ 8) := by
      rw [hb.mode, hb.iv.chars]
    by_cases hd : t.base.mode = CBC ∧ optChars t.base.iv = []
    · simp only [if_pos hd, if_pos (hdd.2 hd)] at hn ⊢
      have hb' : BaseSame py3 { t.base with iv := some (k.slice 0 8) } { t'.base with iv := some (k'.slice 0 8) } :=
        ⟨hb.mode, hk.slice 0 8, hb.padding, hb.padmode⟩
      have hs : SimT py3 t t' → SimT py3 { t with base := { t.base with iv := some (k.slice 0 8) } } { t' with base := { t'.base with iv := some (k'.slice 0 8) } } :=
        fun h => { h with base := hb' }
      have hxx : (t'.base.mode = CBC ∧ (optChars (some (k'.slice 0 8))).length ≠ 8) ↔ (t.base.mode = CBC ∧ (optChars (some (k.slice 0 8))).length ≠ 8) := by
        rw [hb.mode]
        show (_ ∧ (k'.slice 0 8).chars.length ≠ 8) ↔ (_ ∧ (k.slice 0 8).chars.length ≠ 8)
        rw [(hk.slice 0 8).1]
      by_cases hx : t.base.mode = CBC ∧ (optChars (some (k.slice 0 8))).length ≠ 8
      · rw [if_pos hx] at hn
        rw [if_pos hx, if_pos (hxx.2 hx)]
        rcases hn with hn | hn
        · cases hn
        · exact ⟨rfl, hs hn⟩
      · rw [if_neg hx] at hn
        rw [if_neg hx, if_neg (fun h => hx (hxx.1 h))]
        exact setInner_congr (t := { t with base := { t.base with iv := some (k.slice 0 8) } }) (t' := { t' with base := { t'.base with iv := some (k'.slice 0 8) } }) hb' hkey hk (hn.imp id hs)
    · simp only [if_neg hd, if_neg (fun h => hd (hdd.1 h))] at hn ⊢
      by_cases hx : t.base.mode = CBC ∧ (optChars t.base.iv).length ≠ 8
      · rw [if_pos hx] at hn
        rw [if_pos hx, if_pos (hyy.2 hx)]
        rcases hn with hn | hn
        · cases hn
        · exact ⟨rfl, hn⟩
      · rw [if_neg hx] at hn
        rw [if_neg hx, if_neg (fun h => hx (hyy.1 h))]
        exact setInner_congr hb hkey hk hn

theorem base_setPadding_congr {py3 : Bool} {b b' : FBase} (h : BaseSame py3 b b') {p p' : Option Data} (hp : SameO py3 p p') :
    (b.setPadding py3 p).1 = (b'.setPadding py3 p').1 ∧ BaseSame py3 (b.setPadding py3 p).2 (b'.setPadding py3 p').2 := by
  unfold FBase.setPadding
  rw [guardSome_same hp]
  cases guardSome py3 p' with
  | error e => exact ⟨rfl, h⟩
  | ok q => exact ⟨rfl, ⟨h.mode, h.iv, .refl _ _, h.padmode⟩⟩

theorem base_setIV_congr {py3 : Bool} {b b' : FBase} (h : BaseSame py3 b b') {p p' : Option Data} (hp : SameO py3 p p') :
    (b.setIV py3 p).1 = (b'.setIV py3 p').1 ∧ BaseSame py3 (b.setIV py3 p).2 (b'.setIV py3 p').2 := by
  rw [setIVb_eq, setIVb_eq, ivOf_same hp]
  cases ivOf py3 p' with
  | none => exact ⟨rfl, h⟩
  | some q => exact ⟨rfl, ⟨h.mode, .refl _ _, h.padding, h.padmode⟩⟩

theorem setPadding_congr {py3 : Bool} {t t' : FTriple} (h : SimT py3 t t') {p p' : Option Data} (hp : SameO py3 p p') :
    (t.setPadding py3 p).1 = (t'.setPadding py3 p').1 ∧ SimT py3 (t.setPadding py3 p).2 (t'.setPadding py3 p').2 := by
  unfold FTriple.setPadding FDes.setPadding FBase.setPadding
  rw [guardSome_same hp]
  cases guardSome py3 p' with
  | error e => exact ⟨rfl, h⟩
  | ok q =>
    exact ⟨rfl, { h with base := ⟨h.base.mode, h.base.iv, .refl _ _, h.base.padmode⟩, in1 := ⟨h.in1.1, rfl⟩, in2 := ⟨h.in2.1, rfl⟩, in3 := ⟨h.in3.1, rfl⟩,
                         in1' := ⟨h.in1'.1, rfl⟩, in2' := ⟨h.in2'.1, rfl⟩, in3' := ⟨h.in3'.1, rfl⟩ }⟩

theorem setIV_congr {py3 : Bool} {t t' : FTriple} (h : SimT py3 t t') {p p' : Option Data} (hp : SameO py3 p p') :
    (t.setIV py3 p).1 = (t'.setIV py3 p').1 ∧ SimT py3 (t.setIV py3 p).2 (t'.setIV py3 p').2 := by
  unfold FTriple.setIV
  rw [setIVb_eq, setIVb_eq, ivOf_same hp]
  cases hv : ivOf py3 p' with
  | none => exact ⟨rfl, h⟩
  | some v =>
    simp only [setIVs_eq, ivOf_same hp, hv]
    exact ⟨trivial, { h with base := ⟨h.base.mode, .refl _ _, h.base.padding, h.base.padmode⟩ }⟩

/-! ### Whole calls -/

/-- Two outcomes alike: equal, or both give back arguments that are alike. -/
def RetSame (py3 : Bool) (r r' : Except Err Ret) : Prop := r = r' ∨ ∃ x y, r = .ok (.data x) ∧ r' = .ok (.data y) ∧ SameO py3 x y

/-- Two calls alike. -/
inductive CallSame (py3 : Bool) : CallF → CallF → Prop
  | setKey {k k'} (h : Same py3 k k') : CallSame py3 (.setKey k) (.setKey k')
  | setMode (m) : CallSame py3 (.setMode m) (.setMode m)
  | setPadding {p p'} (h : SameO py3 p p') : CallSame py3 (.setPadding p) (.setPadding p')
  | setPadMode (m) : CallSame py3 (.setPadMode m) (.setPadMode m)
  | setIV {v v'} (h : SameO py3 v v') : CallSame py3 (.setIV v) (.setIV v')
  | encrypt {m m' p p'} (h : Same py3 m m') (h' : SameO py3 p p') (pm) : CallSame py3 (.encrypt m p pm) (.encrypt m' p' pm)
  | decrypt {m m' p p'} (h : Same py3 m m') (h' : SameO py3 p p') (pm) : CallSame py3 (.decrypt m p pm) (.decrypt m' p' pm)
  | crypt (m t) : CallSame py3 (.crypt m t) (.crypt m t)
  | getKey : CallSame py3 .getKey .getKey
  | getMode : CallSame py3 .getMode .getMode
  | getPadding : CallSame py3 .getPadding .getPadding
  | getPadMode : CallSame py3 .getPadMode .getPadMode
  | getIV : CallSame py3 .getIV .getIV

theorem CallSame.refl (py3 : Bool) (c : CallF) : CallSame py3 c c := by
  cases c <;> constructor <;> first | exact Same.refl _ _ | exact SameO.refl _ _

theorem triple_call_congr {py3 : Bool} {t t' : FTriple} (h : SimT py3 t t') {c c' : CallF} (hc : CallSame py3 c c') :
    RetSame py3 (t.call py3 c).1 (t'.call py3 c').1 ∧ SimT py3 (t.call py3 c).2 (t'.call py3 c').2 ∧
      (c ≠ .getPadding → c ≠ .getIV → (t.call py3 c).1 = (t'.call py3 c').1) := by
  have lift : ∀ {r r' : Except Err Ret} {P : Prop} {A B : Prop}, r = r' → P → RetSame py3 r r' ∧ P ∧ (A → B → r = r') := fun e p => ⟨.inl e, p, fun _ _ => e⟩
  cases hc with
  | setKey hk =>
    obtain ⟨a, b⟩ := setKey_congr h.base h.key hk (.inr h)
    exact lift (congrArg setterRet a) b
  | setMode m =>
    exact lift rfl { h with base := ⟨rfl, h.base.iv, h.base.padding, h.base.padmode⟩, in1 := ⟨rfl, h.in1.2⟩, in2 := ⟨rfl, h.in2.2⟩, in3 := ⟨rfl, h.in3.2⟩,
                            in1' := ⟨rfl, h.in1'.2⟩, in2' := ⟨rfl, h.in2'.2⟩, in3' := ⟨rfl, h.in3'.2⟩ }
  | setPadding hp =>
    obtain ⟨a, b⟩ := setPadding_congr h hp
    exact lift (congrArg setterRet a) b
  | setPadMode m =>
    exact lift rfl { h with base := ⟨h.base.mode, h.base.iv, h.base.padding, rfl⟩ }
  | setIV hp =>
    obtain ⟨a, b⟩ := setIV_congr h hp
    exact lift (congrArg setterRet a) b
  | encrypt hm hp pm =>
    obtain ⟨a, b⟩ := encrypt_congr h hm hp pm
    exact lift (congrArg dataRet a) b
  | decrypt hm hp pm =>
    obtain ⟨a, b⟩ := decrypt_congr h hm hp pm
    exact lift (congrArg dataRet a) b
  | crypt m ty => exact lift rfl h
  | getKey => exact lift (by show Except.ok (Ret.data (some (.bytes t.key))) = _; rw [h.key]; rfl) h
  | getMode => exact lift (by show Except.ok (Ret.number (some t.base.mode)) = _; rw [h.base.mode]; rfl) h
  | getPadding => exact ⟨.inr ⟨_, _, rfl, rfl, h.base.padding⟩, h, fun x => (x rfl).elim⟩
  | getPadMode => exact lift (by show Except.ok (Ret.number t.base.padmode) = _; rw [h.base.padmode]; rfl) h
  | getIV => exact ⟨.inr ⟨_, _, rfl, rfl, h.base.iv⟩, h, fun _ x => (x rfl).elim⟩

theorem des_crypt_sim {py3 : Bool} {d d' : FDes} (h : SimD py3 d d') (m : List Nat) (ty : Nat) : d.crypt py3 m ty = d'.crypt py3 m ty :=
  crypt_congr py3 d d' h.base.mode h.base.padding.chars h.kn (fun _ => h.base.iv.chars) m ty

theorem single_call_congr {py3 : Bool} {d d' : FDes} (h : SimD py3 d d') {c c' : CallF} (hc : CallSame py3 c c') :
    RetSame py3 (d.call py3 c).1 (d'.call py3 c').1 ∧ SimD py3 (d.call py3 c).2 (d'.call py3 c').2 ∧
      (c ≠ .getPadding → c ≠ .getIV → (d.call py3 c).1 = (d'.call py3 c').1) := by
  have lift : ∀ {r r' : Except Err Ret} {P : Prop} {A B : Prop}, r = r' → P → RetSame py3 r r' ∧ P ∧ (A → B → r = r') := fun e p => ⟨.inl e, p, fun _ _ => e⟩
  cases hc with
  | setKey hk =>
    rename_i k k'
    have e : (d.setKey py3 k).1 = (d'.setKey py3 k').1 ∧ SimD py3 (d.setKey py3 k).2 (d'.setKey py3 k').2 := by
      unfold FDes.setKey
      rw [hk.2]
      cases k'.guard py3 with
      | error e => exact ⟨rfl, h⟩
      | ok x =>
        simp only
        by_cases hl : x.length < 8
        · rw [if_pos hl, if_pos hl]; exact ⟨rfl, h.base, rfl, h.kn⟩
        · rw [if_neg hl, if_neg hl]; exact ⟨rfl, h.base, rfl, rfl⟩
    exact lift (congrArg setterRet e.1) e.2
  | setMode m => exact lift rfl ⟨⟨rfl, h.base.iv, h.base.padding, h.base.padmode⟩, h.key, h.kn⟩
  | setPadding hp =>
    obtain ⟨a, b⟩ := base_setPadding_congr h.base hp
    exact lift (congrArg setterRet a) ⟨b, h.key, h.kn⟩
  | setPadMode m => exact lift rfl ⟨⟨h.base.mode, h.base.iv, h.base.padding, rfl⟩, h.key, h.kn⟩
  | setIV hp =>
    obtain ⟨a, b⟩ := base_setIV_congr h.base hp
    exact lift (congrArg setterRet a) ⟨b, h.key, h.kn⟩
  | encrypt hm hp pm =>
    refine lift (congrArg dataRet ?_) h
    unfold FDes.encrypt
    rw [hm.2, guardSome_same hp]
    simp only [padData_same h.base, des_crypt_sim h]
  | decrypt hm hp pm =>
    refine lift (congrArg dataRet ?_) h
    unfold FDes.decrypt
    rw [hm.2, guardSome_same hp]
    simp only [unpadData_same h.base, des_crypt_sim h]
  | crypt m ty => exact lift (by show dataRet ((d.crypt py3 m ty).map _) = _; rw [des_crypt_sim h]; rfl) h
  | getKey => exact lift (by show Except.ok (Ret.data (some (.bytes d.key))) = _; rw [h.key]; rfl) h
  | getMode => exact lift (by show Except.ok (Ret.number (some d.base.mode)) = _; rw [h.base.mode]; rfl) h
  | getPadding => exact ⟨.inr ⟨_, _, rfl, rfl, h.base.padding⟩, h, fun x => (x rfl).elim⟩
  | getPadMode => exact lift (by show Except.ok (Ret.number d.base.padmode) = _; rw [h.base.padmode]; rfl) h
  | getIV => exact ⟨.inr ⟨_, _, rfl, rfl, h.base.iv⟩, h, fun _ x => (x rfl).elim⟩

/-- Two objects alike. -/
inductive Sim (py3 : Bool) : FObj → FObj → Prop
  | single {d d'} (h : SimD py3 d d') : Sim py3 (.single d) (.single d')
  | triple {t t'} (h : SimT py3 t t') : Sim py3 (.triple t) (.triple t')

theorem call_congr {py3 : Bool} {o o' : FObj} (h : Sim py3 o o') {c c' : CallF} (hc : CallSame py3 c c') :
    RetSame py3 (o.call py3 c).1 (o'.call py3 c').1 ∧ Sim py3 (o.call py3 c).2 (o'.call py3 c').2 ∧
      (c ≠ .getPadding → c ≠ .getIV → (o.call py3 c).1 = (o'.call py3 c').1) := by
  cases h with
  | single h => obtain ⟨a, b, c⟩ := single_call_congr h hc; exact ⟨a, .single b, c⟩
  | triple h => obtain ⟨a, b, c⟩ := triple_call_congr h hc; exact ⟨a, .triple b, c⟩

/-! ### The settings -/

/-- The settings the getters of an object show, but the key. -/
def baseOf : FObj → FBase
  | .single d => d.base
  | .triple t => t.base

/-- The stored key. -/
def keyOf : FObj → List Nat
  | .single d => d.key
  | .triple t => t.key

/-- Objects alike that show the very same settings. -/
def Eqv (py3 : Bool) (o o' : FObj) : Prop := Sim py3 o o' ∧ baseOf o = baseOf o'

theorem setInner_base (py3 : Bool) (t : FTriple) (k : Data) : (t.setInner py3 k).2.base = t.base := by
  unfold FTriple.setInner
  split
  · rfl
  · split
    · rfl
    · split
      · rfl
      · split <;> rfl

theorem setKey_base (py3 : Bool) (t t' : FTriple) (h : t.base = t'.base) (k : Data) : (t.setKey py3 k).2.base = (t'.setKey py3 k).2.base := by
  unfold FTriple.setKey
  rw [h]
  by_cases hl : k.chars.length ≠ 24 ∧ k.chars.length ≠ 16
  · rw [if_pos hl, if_pos hl]; exact h
  · rw [if_neg hl, if_neg hl]
    by_cases hd : t'.base.mode = CBC ∧ optChars t'.base.iv = []
    · simp only [if_pos hd]
      split
      · rfl
      · rw [setInner_base, setInner_base]
    · simp only [if_neg hd, h]
      split
      · exact h
      · rw [setInner_base, setInner_base, h]

theorem setPadding_base (py3 : Bool) (t : FTriple) (p : Option Data) : (t.setPadding py3 p).2.base = (t.base.setPadding py3 p).2 := by
  unfold FTriple.setPadding
  split
  · rename_i e; rw [e]
  · rename_i e; rw [e]

theorem setIV_base (py3 : Bool) (t : FTriple) (p : Option Data) : (t.setIV py3 p).2.base = (t.base.setIV py3 p).2 := by
  unfold FTriple.setIV
  split
  · rename_i e; rw [e]
  · rename_i b e; rw [(setIVs_only py3 _ p).base, e]

theorem call_base (py3 : Bool) {o o' : FObj} (h : Sim py3 o o') (hb : baseOf o = baseOf o') (c : CallF) :
    baseOf (o.call py3 c).2 = baseOf (o'.call py3 c).2 := by
  cases h with
  | single h =>
    rename_i d d'
    have hb : d.base = d'.base := hb
    cases c <;> try exact hb
    case setKey k =>
      show (d.setKey py3 k).2.base = (d'.setKey py3 k).2.base
      have : ∀ d : FDes, (d.setKey py3 k).2.base = d.base := by
        intro d; unfold FDes.setKey; split
        · rfl
        · split <;> rfl
      rw [this, this, hb]
    case setMode m => show { d.base with mode := m } = { d'.base with mode := m }; rw [hb]
    case setPadding m => show (d.base.setPadding py3 m).2 = (d'.base.setPadding py3 m).2; rw [hb]
    case setPadMode m => show { d.base with padmode := m } = { d'.base with padmode := m }; rw [hb]
    case setIV m => show (d.base.setIV py3 m).2 = (d'.base.setIV py3 m).2; rw [hb]
  | triple h =>
    rename_i d d'
    have hb : d.base = d'.base := hb
    cases c <;> try exact hb
    case setKey k => exact setKey_base py3 d d' hb k
    case setMode m => show { d.base with mode := m } = { d'.base with mode := m }; rw [hb]
    case setPadding m => show (d.setPadding py3 m).2.base = (d'.setPadding py3 m).2.base; rw [setPadding_base, setPadding_base, hb]
    case setPadMode m => show { d.base with padmode := m } = { d'.base with padmode := m }; rw [hb]
    case setIV m => show (d.setIV py3 m).2.base = (d'.setIV py3 m).2.base; rw [setIV_base, setIV_base, hb]
    case encrypt m p pm => show (d.encrypt py3 m p pm).2.base = (d'.encrypt py3 m p pm).2.base; rw [(encrypt_only py3 d m p pm).base, (encrypt_only py3 d' m p pm).base, hb]
    case decrypt m p pm => show (d.decrypt py3 m p pm).2.base = (d'.decrypt py3 m p pm).2.base; rw [(decrypt_only py3 d m p pm).base, (decrypt_only py3 d' m p pm).base, hb]

theorem eqv_call {py3 : Bool} {o o' : FObj} (h : Eqv py3 o o') (c : CallF) :
    (o.call py3 c).1 = (o'.call py3 c).1 ∧ Eqv py3 (o.call py3 c).2 (o'.call py3 c).2 := by
  obtain ⟨_, b, e⟩ := call_congr h.1 (CallSame.refl py3 c)
  refine ⟨?_, b, call_base py3 h.1 h.2 c⟩
  have hb := h.2
  by_cases h1 : c = .getPadding
  · subst h1
    cases h.1
    · exact congrArg (fun b : FBase => Except.ok (Ret.data b.padding)) hb
    · exact congrArg (fun b : FBase => Except.ok (Ret.data b.padding)) hb
  by_cases h2 : c = .getIV
  · subst h2
    cases h.1
    · exact congrArg (fun b : FBase => Except.ok (Ret.data b.iv)) hb
    · exact congrArg (fun b : FBase => Except.ok (Ret.data b.iv)) hb
  · exact e h1 h2

theorem eqv_trace {py3 : Bool} (cs : List CallF) : ∀ {o o' : FObj}, Eqv py3 o o' → o.trace py3 cs = o'.trace py3 cs := by
  induction cs with
  | nil => intro o o' _; rfl
  | cons c cs ih =>
    intro o o' h
    obtain ⟨a, b⟩ := eqv_call h c
    show _ :: _ = _ :: _
    rw [a, ih b]

theorem eqv_run {py3 : Bool} (cs : List CallF) : ∀ {o o' : FObj}, Eqv py3 o o' → Eqv py3 (o.run py3 cs) (o'.run py3 cs) := by
  induction cs with
  | nil => intro o o' h; exact h
  | cons c cs ih => intro o o' h; exact ih (eqv_call h c).2

/-! ### Constructed objects -/

theorem newTriple_sim {py3 : Bool} {key key' : Data} (hk : Same py3 key key') {mode : Nat} {iv iv' pad pad' : Option Data} (hi : SameO py3 iv iv') (hp : SameO py3 pad pad')
    {pm : Option Nat} :
    (FTriple.new py3 key mode iv pad pm = .error .valueError ∧ FTriple.new py3 key' mode iv' pad' pm = .error .valueError) ∨
    ∃ t t', FTriple.new py3 key mode iv pad pm = .ok t ∧ FTriple.new py3 key' mode iv' pad' pm = .ok t' ∧ SimT py3 t t' := by
  unfold FTriple.new
  rcases base_new_congr mode hi hp pm with ⟨e1, e2⟩ | ⟨b, b', e1, e2, hb, _⟩
  · rw [e1, e2]; exact .inl ⟨rfl, rfl⟩
  · rw [e1, e2]
    simp only
    generalize ht : (⟨b, [], noFDes, noFDes, noFDes⟩ : FTriple) = t
    generalize ht' : (⟨b', [], noFDes, noFDes, noFDes⟩ : FTriple) = t'
    have hbb : BaseSame py3 t.base t'.base := by subst ht ht'; exact hb
    have hkk : t.key = t'.key := by subst ht ht'; rfl
    have err : ∀ t : FTriple, ∀ k, (t.setKey py3 k).1 = .ok () ∨ (t.setKey py3 k).1 = .error .valueError := by
      intro t k
      have hnew : ∀ b : FBase, ∀ k e, FTriple.inner py3 b k = .error e → e = .valueError := by
        intro b k e he
        unfold FTriple.inner at he
        rcases des_new_congr (Same.refl py3 k) b.mode (SameO.refl py3 b.iv) (SameO.refl py3 b.padding) b.padmode with h | ⟨d, d', h, _⟩
        · rw [h.1] at he; injection he with he; exact he.symm
        · rw [h] at he; cases he
      have hin : ∀ t : FTriple, (t.setInner py3 k).1 = .ok () ∨ (t.setInner py3 k).1 = .error .valueError := by
        intro t
        unfold FTriple.setInner
        split
        · rename_i e h; exact .inr (by rw [hnew _ _ _ h])
        · split
          · rename_i e h; exact .inr (by rw [hnew _ _ _ h])
          · split
            · rename_i e h
              by_cases hl : k.chars.length = 16
              · rw [if_pos hl] at h; cases h
              · rw [if_neg hl] at h; exact .inr (by rw [hnew _ _ _ h])
            · rcases guard_cases py3 k with h | h <;> simp only [h]
              · exact .inr trivial
              · exact .inl trivial
      unfold FTriple.setKey
      split
      · exact .inr rfl
      · simp only
        split
        · split
          · exact .inr rfl
          · exact hin _
        · split
          · exact .inr rfl
          · exact hin _
    rcases err t key with h | h
    · obtain ⟨a, s⟩ := setKey_congr hbb hkk hk (.inl h)
      rw [h] at a
      refine .inr ⟨(t.setKey py3 key).2, (t'.setKey py3 key').2, ?_, ?_, s⟩
      · revert h; generalize t.setKey py3 key = q; intro h; rcases q with ⟨_ | _, _⟩
        · cases h
        · rfl
      · revert a; generalize t'.setKey py3 key' = q; intro h; rcases q with ⟨_ | _, _⟩
        · cases h
        · rfl
    · rcases err t' key' with h' | h'
      · have hs : Same py3 key' key := ⟨hk.1.symm, hk.2.symm⟩
        have hb' : BaseSame py3 t'.base t.base := by
          have sym : ∀ {x y : Option Data}, SameO py3 x y → SameO py3 y x := by
            intro x y hxy
            cases x <;> cases y <;> first | exact hxy | exact ⟨hxy.1.symm, hxy.2.symm⟩
          exact ⟨hbb.mode.symm, sym hbb.iv, sym hbb.padding, hbb.padmode.symm⟩
        obtain ⟨a, _⟩ := setKey_congr hb' hkk.symm hs (.inl h')
        rw [h, h'] at a; cases a
      · refine .inl ⟨?_, ?_⟩
        · revert h; generalize t.setKey py3 key = q; intro h; rcases q with ⟨_ | _, _⟩
          · injection h with h; subst h; rfl
          · cases h
        · revert h'; generalize t'.setKey py3 key' = q; intro h; rcases q with ⟨_ | _, _⟩
          · injection h with h; subst h; rfl
          · cases h

theorem new_sim {py3 tr : Bool} {key key' : Data} (hk : Same py3 key key') {mode : Nat} {iv iv' pad pad' : Option Data} (hi : SameO py3 iv iv') (hp : SameO py3 pad pad')
    {pm : Option Nat} :
    (FObj.new py3 tr key mode iv pad pm = .error .valueError ∧ FObj.new py3 tr key' mode iv' pad' pm = .error .valueError) ∨
    ∃ o o', FObj.new py3 tr key mode iv pad pm = .ok o ∧ FObj.new py3 tr key' mode iv' pad' pm = .ok o' ∧ Sim py3 o o' := by
  unfold FObj.new
  cases tr with
  | true =>
    rcases newTriple_sim (mode := mode) (pm := pm) hk hi hp with ⟨a, b⟩ | ⟨t, t', a, b, h⟩
    · exact .inl ⟨by rw [if_pos rfl, a]; rfl, by rw [if_pos rfl, b]; rfl⟩
    · exact .inr ⟨_, _, by rw [if_pos rfl, a]; rfl, by rw [if_pos rfl, b]; rfl, .triple h⟩
  | false =>
    rcases des_new_congr hk mode hi hp pm with ⟨a, b⟩ | ⟨t, t', a, b, h, _⟩
    · exact .inl ⟨by rw [if_neg (by decide), a]; rfl, by rw [if_neg (by decide), b]; rfl⟩
    · exact .inr ⟨_, _, by rw [if_neg (by decide), a]; rfl, by rw [if_neg (by decide), b]; rfl, .single h⟩

theorem new_wf {py3 tr : Bool} {key : Data} {mode : Nat} {iv pad : Option Data} {pm : Option Nat} {o : FObj} (h : FObj.new py3 tr key mode iv pad pm = .ok o) :
    Eqv py3 o o := by
  rcases new_sim (tr := tr) (mode := mode) (pm := pm) (Same.refl py3 key) (SameO.refl py3 iv) (SameO.refl py3 pad) with ⟨a, _⟩ | ⟨t, t', a, b, hs⟩
  · rw [h] at a; cases a
  · rw [h] at a b
    injection a with a; injection b with b
    subst a; subst b
    exact ⟨hs, rfl⟩

theorem OnlyIVs.sim {py3 : Bool} {t t1 t' : FTriple} (h : OnlyIVs t t1) (hs : SimT py3 t t') : SimT py3 t1 t' := by
  obtain ⟨hb, hk, ⟨v1, h1⟩, ⟨v2, h2⟩, ⟨v3, h3⟩⟩ := h
  refine { base := by rw [hb]; exact hs.base, key := by rw [hk]; exact hs.key, in1 := ?_, in2 := ?_, in3 := ?_, in1' := hs.in1', in2' := hs.in2', in3' := hs.in3',
           kn1 := by rw [h1]; exact hs.kn1, kn2 := by rw [h2]; exact hs.kn2, kn3 := by rw [h3]; exact hs.kn3 }
  · rw [hb, h1]; exact hs.in1
  · rw [hb, h2]; exact hs.in2
  · rw [hb, h3]; exact hs.in3

theorem nonSetter_eqv {py3 : Bool} {o o' : FObj} (h : Eqv py3 o o') (c : CallF) (hc : CallF.sets c = false) : Eqv py3 (o.call py3 c).2 o' := by
  obtain ⟨hs, hb⟩ := h
  cases hs with
  | single h => cases c <;> first | exact ⟨.single h, hb⟩ | cases hc
  | triple h =>
    rename_i t t'
    cases c <;> first | exact ⟨.triple h, hb⟩ | exact Bool.noConfusion hc | skip
    case encrypt m p pm =>
      have o1 := encrypt_only py3 t m p pm
      exact ⟨.triple (o1.sim h), o1.base.trans hb⟩
    case decrypt m p pm =>
      have o1 := decrypt_only py3 t m p pm
      exact ⟨.triple (o1.sim h), o1.base.trans hb⟩

theorem erase_run {py3 : Bool} (cs : List CallF) : ∀ {o o' : FObj}, Eqv py3 o o' → Eqv py3 (o.run py3 cs) (o'.run py3 (cs.filter CallF.sets)) := by
  induction cs with
  | nil => intro o o' h; exact h
  | cons c cs ih =>
    intro o o' h
    cases hc : CallF.sets c with
    | true =>
      rw [List.filter_cons_of_pos hc]
      exact ih (eqv_call h c).2
    | false =>
      rw [List.filter_cons_of_neg (by rw [hc]; decide)]
      exact ih (nonSetter_eqv h c hc)

end DF

end Verif.Props
