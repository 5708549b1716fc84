import Verif.Props.CardLists
import Verif.Spec.Cells
/-! C118: a call changes only the cells it names. -/
namespace Verif.Props
open Verif.Py Verif.Model Verif.Model.Card Verif.Spec Verif.Spec.Card

/-- The list `l'` differs from `l` at most in the cells named; others are related by `R`. -/
structure Kept (R : Int → Int → Prop) (off : Int) (n : Option Int) (l l' : List Int) : Prop where
  len : l'.length = l.length
  out : ∀ j v, l[j]? = some v → ¬ Among off n l.length j → ∃ v', l'[j]? = some v' ∧ R v v'

namespace Kept

theorem same {R : Int → Int → Prop} (hR : ∀ v, R v v) {off : Int} {n : Option Int} (l : List Int) : Kept R off n l l := ⟨rfl, fun _ v h _ => ⟨v, h, hR v⟩⟩

theorem trans {R : Int → Int → Prop} (hR : ∀ a b c, R a b → R b c → R a c) {off : Int} {n : Option Int} {l l' l'' : List Int} (h1 : Kept R off n l l')
    (h2 : Kept R off n l' l'') : Kept R off n l l'' := by
  refine ⟨h2.len.trans h1.len, fun j v h hn => ?_⟩
  obtain ⟨v', e1, r1⟩ := h1.out j v h hn
  obtain ⟨v'', e2, r2⟩ := h2.out j v' e1 (by rw [h1.len]; exact hn)
  exact ⟨v'', e2, hR _ _ _ r1 r2⟩

theorem weaken {R S : Int → Int → Prop} (hS : ∀ a b, R a b → S a b) {off off' : Int} {n n' : Option Int} {l l' : List Int} (h : Kept R off n l l')
    (ha : ∀ j, Among off n l.length j → Among off' n' l.length j) : Kept S off' n' l l' :=
  ⟨h.len, fun j v hv hn => by
    obtain ⟨v', e, r⟩ := h.out j v hv fun h => hn (ha j h)
    exact ⟨v', e, hS _ _ r⟩⟩

theorem more {R : Int → Int → Prop} {off : Int} {n n' : Option Int} {l l' : List Int} (h : Kept R off n l l') (hn : ∀ m', n' = some m' → ∃ m, n = some m ∧ m ≤ m') :
    Kept R off n' l l' :=
  h.weaken (fun _ _ => id) fun j ⟨t, h1, h2⟩ => ⟨t, fun m' hm' => by
    obtain ⟨m, e, hle⟩ := hn m' hm'
    have := h1 m e
    omega, h2⟩

theorem any {R : Int → Int → Prop} {off : Int} {n : Option Int} {l l' : List Int} (h : Kept R off n l l') : Kept R off none l l' := h.more (fun _ e => by cases e)

theorem set {l l' : List Int} {off i v : Int} {n : Option Int} (t : Nat) (hi : i = off + t) (ht : ∀ m, n = some m → (t : Int) < m) (h : Verif.Py.set l i v = .ok l') :
    Kept Eq off n l l' := by
  refine ⟨set_length h, fun j u hu hn => ⟨u, ?_, rfl⟩⟩
  by_cases hr : -(l.length : Int) ≤ i ∧ i < l.length
  · obtain ⟨p, hp⟩ := names_of_reach _ _ hr
    rw [set_names _ _ _ _ hp] at h
    injection h with h
    subst h
    have : p ≠ j := fun e => hn ⟨t, ht, by rw [← hi, ← e]; exact hp⟩
    rw [List.getElem?_set_ne this, hu]
  · rw [set_unnamed _ _ _ hr] at h
    cases h

theorem eqTrans {off : Int} {n : Option Int} {l l' l'' : List Int} (h1 : Kept Eq off n l l') (h2 : Kept Eq off n l' l'') : Kept Eq off n l l'' :=
  h1.trans (fun _ _ _ a b => a.trans b) h2

theorem eqSame {off : Int} {n : Option Int} (l : List Int) : Kept Eq off n l l := same (fun _ => rfl) l

/-- Cells named from a later offset. -/
theorem later {R : Int → Int → Prop} {off : Int} {k : Nat} {n n' : Option Int} {l l' : List Int} (h : Kept R (off + k) n l l')
    (hn : ∀ m', n' = some m' → ∃ m, n = some m ∧ k + m ≤ m') : Kept R off n' l l' :=
  h.weaken (fun _ _ => id) fun j ⟨t, h1, h2⟩ => ⟨k + t, fun m' hm' => by
    obtain ⟨m, e, hle⟩ := hn m' hm'
    have := h1 m e
    omega, by rw [show off + ((k + t : Nat) : Int) = off + k + t by omega]; exact h2⟩

end Kept

/-! ### The functions that store into lists -/

theorem copyLoop_kept (s : Nat) (so : Int) (d : Nat) (o : Int) : ∀ (n i : Nat) (h : Heap),
    Kept Eq o (some ((i + n : Nat) : Int)) (h d) ((Util.copyLoop h s so d o i n).2 d) := by
  intro n
  induction n with
  | zero => intro i h; exact .eqSame _
  | succ n ih =>
    intro i h
    simp only [Util.copyLoop]
    split
    · exact .eqSame _
    · split
      · exact .eqSame _
      · next l hl =>
        have h1 : Kept Eq o (some ((i + (n + 1) : Nat) : Int)) (h d) l := .set i rfl (fun m hm => by cases hm; omega) hl
        have h2 := ih (i + 1) (h.upd d l)
        rw [show i + 1 + n = i + (n + 1) by omega] at h2
        have : h.upd d l d = l := by simp [Heap.upd]
        rw [this] at h2
        exact h1.eqTrans h2

theorem copyRef_kept (h : Heap) (s : Nat) (so : Int) (d : Nat) (o n : Int) : Kept Eq o (some n) (h d) ((Util.arrayCopyRef h s so d o n).2 d) := by
  have := copyLoop_kept s so d o (rangeLen n) 0 h
  have := this.weaken (fun _ _ => id) (off' := o) (n' := some n) (fun j ⟨t, h1, h2⟩ => ⟨t, fun m hm => by
    cases hm; have := h1 _ rfl; simp only [rangeLen] at this; omega, h2⟩)
  unfold Util.arrayCopyRef
  simp only [JCSystem.beginTransaction, JCSystem.commitTransaction, JCSystem.abortTransaction]
  split <;> next e => rw [e] at this; exact this

theorem copy_kept (src : List Int) (so : Int) (dest : List Int) (o n : Int) : Kept Eq o (some n) dest (Util.arrayCopy src so dest o n).2 :=
  copyRef_kept (Util.twoLists src dest) 0 so 1 o n

theorem copy_kept' {src dest l : List Int} {so o n : Int} {x : Except Err Unit} (h : Util.arrayCopy src so dest o n = (x, l)) : Kept Eq o (some n) dest l := by
  have := copy_kept src so dest o n
  rw [h] at this
  exact this

theorem copySelf_kept (a : List Int) (so o n : Int) : Kept Eq o (some n) a (Util.arrayCopySelf a so o n).2 :=
  copyRef_kept (Util.twoLists a []) 0 so 0 o n

theorem copyNonAtomicRef_kept (h : Heap) (s : Nat) (so : Int) (d : Nat) (o n : Int) :
    Kept Eq o (some n) (h d) ((Util.arrayCopyNonAtomicRef h s so d o n).2 d) := by
  have := copyLoop_kept s so d o (rangeLen n) 0 h
  have := this.weaken (fun _ _ => id) (off' := o) (n' := some n) (fun j ⟨t, h1, h2⟩ => ⟨t, fun m hm => by
    cases hm; have := h1 _ rfl; simp only [rangeLen] at this; omega, h2⟩)
  unfold Util.arrayCopyNonAtomicRef
  split
  · next e => rw [e] at this; exact this
  · exact this

theorem copyNonAtomic_kept (src : List Int) (so : Int) (dest : List Int) (o n : Int) : Kept Eq o (some n) dest (Util.arrayCopyNonAtomic src so dest o n).2 :=
  copyNonAtomicRef_kept (Util.twoLists src dest) 0 so 1 o n

theorem fillLoop_kept (o v : Int) : ∀ (n i : Nat) (l : List Int), Kept Eq o (some ((i + n : Nat) : Int)) l (Util.fillLoop l o v i n).2 := by
  intro n
  induction n with
  | zero => intro i l; exact .eqSame _
  | succ n ih =>
    intro i l
    simp only [Util.fillLoop]
    split
    · exact .eqSame _
    · next l' hl =>
      have h2 := ih (i + 1) l'
      rw [show i + 1 + n = i + (n + 1) by omega] at h2
      exact Kept.eqTrans (.set i rfl (fun m hm => by cases hm; omega) hl) h2

theorem fill_kept (l : List Int) (o n v : Int) : Kept Eq o (some n) l (Util.arrayFillNonAtomic l o n v).2 := by
  have := fillLoop_kept o v (rangeLen n) 0 l
  have := this.weaken (fun _ _ => id) (off' := o) (n' := some n) (fun j ⟨t, h1, h2⟩ => ⟨t, fun m hm => by
    cases hm; have := h1 _ rfl; simp only [rangeLen] at this; omega, h2⟩)
  unfold Util.arrayFillNonAtomic
  split
  · next e => rw [e] at this; exact this
  · exact this

theorem genLoop_kept (rnd : Nat → Nat) (o : Int) : ∀ (n i : Nat) (l : List Int), Kept Eq o (some ((i + n : Nat) : Int)) l (RandomData.genLoop rnd l o i n).2 := by
  intro n
  induction n with
  | zero => intro i l; exact .eqSame _
  | succ n ih =>
    intro i l
    simp only [RandomData.genLoop]
    split
    · exact .eqSame _
    · next l' hl =>
      have h2 := ih (i + 1) l'
      rw [show i + 1 + n = i + (n + 1) by omega] at h2
      exact Kept.eqTrans (.set i rfl (fun m hm => by cases hm; omega) hl) h2

theorem random_kept (rnd : Nat → Nat) (l : List Int) (o n : Int) : Kept Eq o (some n) l (RandomData.generateData rnd l o n).2 := by
  have := genLoop_kept rnd o (rangeLen n) 0 l
  have := this.weaken (fun _ _ => id) (off' := o) (n' := some n) (fun j ⟨t, h1, h2⟩ => ⟨t, fun m hm => by
    cases hm; have := h1 _ rfl; simp only [rangeLen] at this; omega, h2⟩)
  unfold RandomData.generateData
  split
  · exact .eqSame _
  · split <;> next e => rw [e] at this; exact this

theorem digestWrite_kept (o : Int) : ∀ (vs : List Nat) (i : Nat) (l : List Int), Kept Eq o (some ((i + vs.length : Nat) : Int)) l (MessageDigest.writeLoop l o i vs).2 := by
  intro vs
  induction vs with
  | nil => intro i l; exact .eqSame _
  | cons v vs ih =>
    intro i l
    simp only [MessageDigest.writeLoop]
    split
    · exact .eqSame _
    · next l' hl =>
      have h2 := ih (i + 1) l'
      rw [show i + 1 + vs.length = i + (v :: vs).length by simp; omega] at h2
      exact Kept.eqTrans (.set i rfl (fun m hm => by cases hm; simp; omega) hl) h2

theorem copyRange_kept (src : List Int) (so o : Int) : ∀ (n i : Nat) (l : List Int), Kept Eq o (some ((i + n : Nat) : Int)) l (copyRange src so l o i n).2 := by
  intro n
  induction n with
  | zero => intro i l; exact .eqSame _
  | succ n ih =>
    intro i l
    simp only [copyRange]
    split
    · exact .eqSame _
    · split
      · exact .eqSame _
      · next l' hl =>
        have h2 := ih (i + 1) l'
        rw [show i + 1 + n = i + (n + 1) by omega] at h2
        exact Kept.eqTrans (.set i rfl (fun m hm => by cases hm; omega) hl) h2

theorem setShort_kept (l : List Int) (o v : Int) : Kept Eq o (some 2) l (Util.setShort l o v).2 := by
  unfold Util.setShort
  dsimp only
  split
  · exact .eqSame _
  · next h1 =>
    have k1 := Kept.set (n := some 2) (off := o) 0 (by simp) (fun m hm => by cases hm; omega) h1
    split
    · exact k1
    · next h2 => exact k1.eqTrans (Kept.set 1 rfl (fun m hm => by cases hm; omega) h2)

theorem setInt_kept (l : List Int) (o a b : Int) : Kept Eq o (some 4) l (JCint.setInt l o a b).2 := by
  unfold JCint.setInt
  dsimp only
  split
  · exact .eqSame _
  · next h1 =>
    have k1 := Kept.set (n := some 4) (off := o) 0 (by simp) (fun m hm => by cases hm; omega) h1
    split
    · exact k1
    · next h2 =>
      have k2 := k1.eqTrans (Kept.set 1 rfl (fun m hm => by cases hm; omega) h2)
      split
      · exact k2
      · next h3 =>
        have k3 := k2.eqTrans (Kept.set 2 rfl (fun m hm => by cases hm; omega) h3)
        split
        · exact k3
        · next h4 => exact k3.eqTrans (Kept.set 3 rfl (fun m hm => by cases hm; omega) h4)

theorem memory_kept (l : List Int) (o t : Int) : Kept Eq o (some 2) l ((JCSystem.getAvailableMemory3 (some l) o t).2.getD l) := by
  unfold JCSystem.getAvailableMemory3
  dsimp only
  split
  · exact .eqSame _
  · next h1 =>
    have k1 := Kept.set (n := some 2) (off := o) 0 (by simp) (fun m hm => by cases hm; omega) h1
    split
    · exact k1
    · next h2 => exact k1.eqTrans (Kept.set 1 rfl (fun m hm => by cases hm; omega) h2)

theorem sameByte_refl (v : Int) : SameByte v v := ⟨fun _ => rfl, by simp⟩

theorem sameByte_trans (a b c : Int) (h1 : SameByte a b) (h2 : SameByte b c) : SameByte a c := by
  refine ⟨fun h => ?_, ?_⟩
  · have e := h1.1 h
    subst e
    exact h2.1 h
  · have := h1.2; have := h2.2; omega

theorem sanity_same (x : Int) : SameByte x (if x > shl 1 (8 - 1) - 1 then -(iand (inot (x - 1)) (shl 1 8 - 1)) else x) := by
  have e1 : shl 1 (8 - 1) - 1 = 127 := by decide
  have e2 : shl 1 8 - 1 = 2 ^ 8 - 1 := by decide
  rw [e1, e2]
  refine ⟨fun h => by rw [if_neg (by omega)], ?_⟩
  split
  · rw [iand_mask]
    simp only [inot]
    omega
  · simp

theorem sanity_kept {off : Int} {n : Option Int} (l : List Int) : Kept SameByte off n l (sanitycheck l) := by
  refine ⟨sanity_len l, fun j v hv _ => ⟨_, ?_, sanity_same v⟩⟩
  simp only [sanitycheck, List.getElem?_map, hv, Option.map_some]

theorem Kept.byte {off : Int} {n : Option Int} {l l' : List Int} (h : Kept Eq off n l l') : Kept SameByte off n l l' :=
  h.weaken (fun a _ e => e ▸ sameByte_refl a) fun _ => id

theorem writeChunks_kept (o : Int) : ∀ (cs : List Int) (k : Nat) (l : List Int),
    Kept Eq o (some ((k + cs.length : Nat) : Int)) l (BERTag.writeChunks l o k cs).2 ∧
    ∀ m, (BERTag.writeChunks l o k cs).1 = .ok m → m = ((k + cs.length : Nat) : Int) := by
  intro cs
  induction cs with
  | nil => intro k l; exact ⟨.eqSame _, fun m hm => by simp [BERTag.writeChunks] at hm; simp [hm]⟩
  | cons c cs ih =>
    intro k l
    simp only [BERTag.writeChunks]
    split
    · exact ⟨.eqSame _, fun m hm => by cases hm⟩
    · next l' hl =>
      obtain ⟨h2, h3⟩ := ih (k + 1) l'
      rw [show k + 1 + cs.length = k + (c :: cs).length by simp; omega] at h2 h3
      exact ⟨Kept.eqTrans (.set k rfl (fun m hm => by cases hm; simp; omega) hl) h2, h3⟩

/-- The number told by a call that stores into a list. -/
def told (x : Except Err Int) : Option Int := match x with
  | .ok n => some n
  | .error _ => none

theorem tagToBytes_kept (t : BERTag) (l : List Int) (o : Int) : Kept SameByte o (told (t.toBytes l o).1) l (t.toBytes l o).2 ∧
    ∀ n, (t.toBytes l o).1 = .ok n → 1 ≤ n := by
  unfold BERTag.toBytes
  dsimp only
  split
  · split
    · split
      · exact ⟨.same sameByte_refl _, fun n hn => by cases hn⟩
      · next h1 =>
        refine ⟨((Kept.set 0 (by simp) (fun m hm => by cases hm; omega) h1).byte).trans sameByte_trans (sanity_kept _), fun n hn => by cases hn; omega⟩
    · split
      · exact ⟨.same sameByte_refl _, fun n hn => by cases hn⟩
      · next num _ _ _ _ b h1 =>
        obtain ⟨h2, h3⟩ := writeChunks_kept o (BERTag.chunks num).reverse 1 b
        have k1 : Kept Eq o (some ((1 + (BERTag.chunks num).reverse.length : Nat) : Int)) l b := .set 0 (by simp) (fun m hm => by cases hm; omega) h1
        have k2 := k1.eqTrans h2
        simp only [Int.natCast_one] at h2 h3 k2
        split
        · next e => rw [e] at k2; exact ⟨k2.any.byte, fun n hn => by cases hn⟩
        · next bLen b' e =>
          rw [e] at k2 h3
          have hb := h3 bLen rfl
          rw [← hb] at k2
          split
          · exact ⟨k2.any.byte, fun n hn => by cases hn⟩
          · split
            · exact ⟨k2.any.byte, fun n hn => by cases hn⟩
            · next h4 =>
              have k3 := k2.eqTrans (Kept.set (1 + (BERTag.chunks num).reverse.length - 1) (by rw [hb]; omega) (fun m hm => by cases hm; omega) h4)
              exact ⟨k3.byte.trans sameByte_trans (sanity_kept _), fun n hn => by cases hn; omega⟩
  · exact ⟨.same sameByte_refl _, fun n hn => by cases hn⟩

theorem tlvToBytes_kept (t : BERTLV) (l : List Int) (o : Int) (hl : 0 ≤ t.length) : Kept SameByte o (told (t.toBytes l o).1) l (t.toBytes l o).2 := by
  unfold BERTLV.toBytes
  split
  · exact .same sameByte_refl _
  · next tag _ =>
    obtain ⟨h1, h1'⟩ := tagToBytes_kept tag l o
    split
    · next e => rw [e] at h1; exact h1.any
    · next bLen b e =>
      rw [e] at h1 h1'
      have hb := h1' bLen rfl
      obtain ⟨k, rfl⟩ : ∃ k : Nat, bLen = k := ⟨bLen.toNat, by omega⟩
      split
      · exact h1.any
      · split
        · exact h1.any
        · next b' h2 =>
          have k2 : Kept SameByte o (some (k + 1 + t.length)) l b' :=
            (h1.more (fun m' hm' => ⟨k, rfl, by cases hm'; omega⟩)).trans sameByte_trans (Kept.set k rfl (fun m hm => by cases hm; omega) h2).byte
          have k3 := copy_kept (t.value.getD []) 0 b' (o + (k + 1)) t.length
          have k4 : Kept SameByte o (some (k + 1 + t.length)) b' (Util.arrayCopy (t.value.getD []) 0 b' (o + (k + 1)) t.length).2 :=
            (Kept.later (k := k + 1) (n := some t.length) (by simpa using k3) (fun m' hm' => ⟨_, rfl, by cases hm'; omega⟩)).byte
          have k5 := k2.trans sameByte_trans k4
          dsimp only
          split <;> next e' => rw [e'] at k5; first | exact k5.any | exact k5

theorem tlvToBytes_any (t : BERTLV) (l : List Int) (o : Int) : Kept SameByte o none l (t.toBytes l o).2 := by
  unfold BERTLV.toBytes
  split
  · exact .same sameByte_refl _
  · next tag _ =>
    obtain ⟨h1, h1'⟩ := tagToBytes_kept tag l o
    split
    · next e => rw [e] at h1; exact h1.any
    · next bLen b e =>
      rw [e] at h1 h1'
      have hb := h1' bLen rfl
      obtain ⟨k, rfl⟩ : ∃ k : Nat, bLen = k := ⟨bLen.toNat, by omega⟩
      split
      · exact h1.any
      · split
        · exact h1.any
        · next b' h2 =>
          have k2 : Kept SameByte o none l b' := h1.any.trans sameByte_trans (Kept.set k rfl (fun m hm => by cases hm) h2).byte
          have k3 := copy_kept (t.value.getD []) 0 b' (o + (k + 1)) t.length
          have k4 : Kept SameByte o none b' (Util.arrayCopy (t.value.getD []) 0 b' (o + (k + 1)) t.length).2 :=
            (Kept.later (k := k + 1) (n := some t.length) (by simpa using k3) (fun m' hm' => by cases hm')).byte
          have k5 := k2.trans sameByte_trans k4
          dsimp only
          split <;> next e' => rw [e'] at k5; exact k5

theorem getValue_kept (t : BERTLV) (l : List Int) (o : Int) : Kept Eq o (told (t.getValue l o).1) l (t.getValue l o).2 := by
  unfold BERTLV.getValue
  have h3 := copy_kept (t.value.getD []) 0 l o t.length
  split
  · exact .eqSame _
  · split <;> next e' => rw [e'] at h3; first | exact h3.any | exact h3

theorem appendStatic_kept (a : List Int) (o : Int) (b : List Int) (o' : Int) : Kept SameByte o' none b (BERTLV.appendStatic a o b o').2 := by
  unfold BERTLV.appendStatic
  repeat' split
  all_goals first | exact .same sameByte_refl _ | exact tlvToBytes_any _ _ _

theorem getKey_kept (k : DESKey) (l : List Int) (o : Int) : Kept Eq o (some (k.size / 8)) l (k.getKey l o).2 := by
  unfold DESKey.getKey
  split
  · exact .eqSame _
  · exact copy_kept _ _ _ _ _

theorem getComponent_kept (k : RSAKey) (c : Option (List Int)) (l : List Int) (o : Int) : Kept Eq o (told (k.getComponent c l o).1) l (k.getComponent c l o).2 := by
  unfold RSAKey.getComponent
  split
  · exact .eqSame _
  · split
    · exact .eqSame _
    · next v =>
      have h3 := copy_kept v 0 l o v.length
      split <;> next e' => rw [e'] at h3; first | exact h3.any | exact h3

theorem bigToBytes_kept (x : BigNumber) (l : List Int) (o n f : Int) : Kept Eq o (some n) l (x.toBytes l o n f).2 := by
  unfold BigNumber.toBytes
  repeat' split
  all_goals first | exact .eqSame _ | (dsimp only; split <;> first | exact .eqSame _ | exact copy_kept _ _ _ _ _)

theorem digestFinal_kept (H : HashLib) (hH : ∀ alg m, (H alg m).length = (H alg []).length) (d : MessageDigest) (a : List Int) (o n : Int) (b : List Int) (o' : Int) :
    Kept Eq o' (told (d.doFinal H a o n b o').1) b (d.doFinal H a o n b o').2.1 := by
  unfold MessageDigest.doFinal
  split
  · exact .eqSame _
  · next d' _ =>
    have h3 := digestWrite_kept o' (H d'.algorithm d'.m) 0 b
    rw [hH, Nat.zero_add] at h3
    split <;> next e' => rw [e'] at h3; first | exact h3.any | exact h3

theorem desFinal_kept (c : DESCipher) (a : List Int) (o n : Int) (b : List Int) (o' : Int) :
    Kept Eq o' (told (c.doFinal a o n b o').1) b (c.doFinal a o n b o').2.1 := by
  unfold DESCipher.doFinal
  repeat' split
  all_goals first | exact .eqSame _ | skip
  dsimp only
  next r _ _ =>
    have h3 := copy_kept (binaryToArray r) 0 b o' (binaryToArray r).length
    split <;> next e' => rw [e'] at h3; first | exact h3.any | exact h3

theorem rsaFinal_kept (heap : KeyHeap) (ops : RSAOps) (ls : Bool) (rnd : List Nat) (c : RSACipher) (a : List Int) (o n : Int) (b : List Int) (o' : Int)
    (y : Res (List Int) Int) (h : c.doFinal heap ops ls rnd a o n b o' = some y) : Kept Eq o' (told y.1) b y.2 := by
  unfold RSACipher.doFinal at h
  repeat' (first | (split at h) | (dsimp only at h; split at h))
  all_goals first
    | (injection h with h; subst h; exact .eqSame _)
    | (injection h with h; subst h; first | exact (copy_kept' (by assumption)).any | exact copy_kept' (by assumption))
    | cases h
    | skip

theorem copyRange_told {src l l' : List Int} {so o t : Int} {x : Except Err Unit} (h : copyRange src so l o 0 (rangeLen t) = (x, l')) : Kept Eq o (some t) l l' := by
  have := copyRange_kept src so o (rangeLen t) 0 l
  rw [h] at this
  exact this.weaken (fun _ _ => id) (fun j ⟨u, h1, h2⟩ => ⟨u, fun m hm => by
    cases hm; have := h1 _ rfl; simp only [rangeLen] at this; omega, h2⟩)

/-- The cells of the buffer that a call on an APDU stores into. -/
def bufferCells (x : APDU) (op : APDU.Op) : Option (Int × Option Int) := match op with
  | .receiveBytes off => some (off, told (x.step op).1)
  | .setIncomingAndReceive => some (x.offsetincoming, told (x.step op).1)
  | .poke i _ => some (i, some 1)
  | _ => none

theorem apduBuffer_kept (x : APDU) (op : APDU.Op) : match bufferCells x op with
    | some (off, n) => Kept Eq off n x.buffer (x.step op).2.buffer
    | none => (x.step op).2.buffer = x.buffer := by
  cases op with
  | setIncomingAndReceive =>
    simp only [bufferCells, APDU.step, APDU.setIncomingAndReceive]
    repeat' split
    all_goals first | exact .eqSame _ | exact (copyRange_told (by assumption)).any | exact copyRange_told (by assumption)
  | receiveBytes o =>
    simp only [bufferCells, APDU.step, APDU.receiveBytes]
    repeat' split
    all_goals first | exact .eqSame _ | exact (copyRange_told (by assumption)).any | exact copyRange_told (by assumption)
  | setOutgoing => simp only [bufferCells, APDU.step, setOutgoing_buffer]
  | setOutgoingLength n => simp only [bufferCells, APDU.step, setOutgoingLength_buffer]
  | sendBytes o n => simp only [bufferCells, APDU.step, sendBytes_buffer]
  | sendBytesLong d o n =>
    simp only [bufferCells, APDU.step, APDU.sendBytesLong]
    split
    · rfl
    · simp only [sendFrom_buffer]
  | setOutgoingAndSend o n =>
    simp only [bufferCells, APDU.step, APDU.setOutgoingAndSend]
    have h1 := setOutgoing_buffer x
    split
    · next e => rw [e] at h1; simp only at h1 ⊢; rw [h1]
    · next b e =>
      rw [e] at h1
      have h2 := setOutgoingLength_buffer b n
      split
      · next e' => rw [e'] at h2; simp only at h1 h2 ⊢; rw [h2, h1]
      · next c e' => rw [e'] at h2; simp only [sendBytes_buffer] at h1 h2 ⊢; rw [h2, h1]
  | poke i v =>
    simp only [bufferCells, APDU.step, APDU.poke]
    split
    · exact .eqSame _
    · next h => exact .set 0 (by simp) (fun m hm => by cases hm; omega) h

theorem halfBuffer_kept (h : HalfAPDU) (op : APDU.Op) : match op with
    | .poke i _ => Kept Eq i (some 1) h.buffer (h.step op).2.buffer
    | _ => (h.step op).2.buffer = h.buffer := by
  cases op <;> simp only [HalfAPDU.step]
  case poke i v =>
    split
    · exact .eqSame _
    · next h => exact .set 0 (by simp) (fun m hm => by cases hm; omega) h
  all_goals repeat' split
  all_goals rfl

theorem getBytes_kept (a : AID) (l : List Int) (o : Int) (ho : 0 ≤ o) : Kept Eq o (told (a.getBytes l o).1) l (a.getBytes l o).2 := by
  refine ⟨getBytes_len a l o ho, fun j v hv hn => ⟨v, ?_, rfl⟩⟩
  unfold AID.getBytes at hn ⊢
  split
  · exact hv
  · next h =>
    rw [if_neg h] at hn
    obtain ⟨n, rfl⟩ : ∃ n : Nat, o = n := ⟨o.toNat, by omega⟩
    simp only [setSlice, bound]
    rw [if_pos (by omega), if_pos (by omega)]
    have hj : j < l.length := (List.getElem?_eq_some_iff.1 hv).1
    have : j < n ∨ n + a.aid.length ≤ j := by
      apply Classical.byContradiction
      intro hc
      exact hn ⟨j - n, fun m hm => by simp only [told] at hm; cases hm; omega, hj, .inl (by omega)⟩
    rw [← hv]
    have e1 : ((n : Int) : Int).toNat = n := by omega
    have e2 : ((n : Int) + a.aid.length).toNat = n + a.aid.length := by omega
    rw [e1, e2, Nat.min_eq_left (by omega), Nat.min_eq_left (by omega), Nat.max_eq_right (by omega)]
    rcases this with h1 | h1
    · rw [List.append_assoc, List.getElem?_append_left (by simp; omega), List.getElem?_take, if_pos h1]
    · rw [List.getElem?_append_right (by simp; omega), List.getElem?_drop]
      congr 1
      simp
      omega

/-! ### C118 -/

/-- How the cells a call does not name are related to what they were. -/
def Rest (s : Step) (v v' : Int) : Prop := if signs s then SameByte v v' else v = v'

theorem rest_refl (s : Step) (v : Int) : Rest s v v := by
  unfold Rest
  split
  · exact sameByte_refl v
  · rfl

theorem rest_eq {s : Step} {off : Int} {n : Option Int} {l l' : List Int} (h : Kept Eq off n l l') : Kept (Rest s) off n l l' :=
  h.weaken (fun a _ e => e ▸ rest_refl s a) fun _ => id

theorem rest_byte {s : Step} (hs : signs s = true) {off : Int} {n : Option Int} {l l' : List Int} (h : Kept SameByte off n l l') : Kept (Rest s) off n l l' :=
  h.weaken (fun a b e => by unfold Rest; rw [if_pos hs]; exact e) fun _ => id

theorem told_returned (x : Except Err Int) : returned (x.map .int) = told x := by cases x <;> rfl

theorem sem_kept (env : CryptoEnv) (fuel : Nat) (hH : ∀ alg m, (env.hash alg m).length = (env.hash alg []).length) (w : Card) (s : Step) :
    ∀ e, sem env fuel w s = some e → ∀ u ∈ e.2, ∀ l l', w u.1 = .array l → u.2 = .array l' → ¬ Resizes w u.1 s →
      l' = l ∨ ∃ off n, target w e.1 s = some (u.1, off, n) ∧ Kept (Rest s) off n l l' := by
  let P : Eff → Prop := fun e => ∀ u ∈ e.2, ∀ l l', w u.1 = .array l → u.2 = .array l' → ¬ Resizes w u.1 s →
      l' = l ∨ ∃ off n, target w e.1 s = some (u.1, off, n) ∧ Kept (Rest s) off n l l'
  show ∀ e, sem env fuel w s = some e → P e
  have hw : P wrong := fun u hu => by simp [wrong] at hu
  have h0 : ∀ o, P (o, []) := fun o u hu => by simp at hu
  have h1 : ∀ o r l l' off n, w r = .array l → target w o s = some (r, off, n) → Kept (Rest s) off n l l' → P (o, [(r, .array l')]) := by
    intro o r l l' off n hl ht hk u hu m m' hm hm' _
    simp only [List.mem_singleton] at hu
    subst hu
    simp only at hm hm'
    rw [hl] at hm
    cases hm; cases hm'
    exact .inr ⟨off, n, ht, hk⟩
  have h2 : ∀ o r l l' off n c x, w r = .array l → target w o s = some (r, off, n) → Kept (Rest s) off n l l' → kind x ≠ .array → P (o, [(r, .array l'), (c, x)]) := by
    intro o r l l' off n c x hl ht hk hx u hu m m' hm hm' hr
    simp only [List.mem_cons, List.not_mem_nil, or_false] at hu
    rcases hu with rfl | rfl
    · exact h1 o r l l' off n hl ht hk _ (List.mem_singleton.2 rfl) m m' hm hm' hr
    · simp only at hm'
      subst hm'
      exact absurd rfl hx
  by_cases hs : Kind.array ∉ changes s
  · intro e he u hu l l' _ hu' _
    have := written env fuel w s e he u hu
    rw [hu'] at this
    exact absurd this hs
  rw [Classical.not_not] at hs
  have hapdu : ∀ a r b raw buf op x, (∀ q, w q = w r → (∃ b y, w a = .apdu q b y) → Resizes w q s) →
      (∀ o, target w o s = (match op, x with
        | .receiveBytes off, _ => some (b, off, returned o)
        | .setIncomingAndReceive, .full x => some (b, x.offsetincoming, returned o)
        | .poke i _, _ => some (b, i, some 1)
        | _, _ => none)) →
      w a = .apdu r b x → w r = .array raw → w b = .array buf → P (apduStep a r b raw buf op x) := by
    intro a r b raw buf op x hres htar ha hr hb u hu m m' hm hm' hn
    cases x with
    | full y =>
      simp only [apduStep, List.mem_cons, List.not_mem_nil, or_false] at hu
      rcases hu with rfl | rfl | rfl
      · simp at hm'
      · exact absurd (hres _ rfl ⟨_, _, ha⟩) hn
      · simp only [hb] at hm
        cases hm; cases hm'
        simp only [htar]
        have := apduBuffer_kept { y with raw := raw, buffer := buf } op
        simp only [apduStep]
        cases op <;> simp only [bufferCells] at this ⊢
        case setIncomingAndReceive => exact .inr ⟨_, _, rfl, rest_eq (by rw [told_returned]; exact this)⟩
        case receiveBytes o => exact .inr ⟨_, _, rfl, rest_eq (by rw [told_returned]; exact this)⟩
        case poke i v => exact .inr ⟨_, _, rfl, rest_eq this⟩
        all_goals exact .inl this
    | half y =>
      simp only [apduStep, List.mem_cons, List.not_mem_nil, or_false] at hu
      rcases hu with rfl | rfl
      · simp at hm'
      · simp only [hb] at hm
        cases hm; cases hm'
        simp only [htar]
        have := halfBuffer_kept { y with buffer := buf } op
        cases op <;> simp only at this ⊢
        case poke i v => exact .inr ⟨_, _, rfl, rest_eq this⟩
        all_goals exact .inl this
  cases s <;> try (simp [changes] at hs; done)
  case newArray r l =>
    intro e he
    simp only [sem, Option.some.injEq] at he
    subst he
    refine make_ind hw fun hf u hu m m' hm hm' _ => ?_
    simp only [List.mem_singleton] at hu
    subst hu
    simp [hf] at hm
  case store r i v =>
    intro e he
    simp only [sem, Option.some.injEq] at he
    subst he
    refine onArray_ind hw fun l hl => ?_
    split
    · exact h0 _
    · next l' hl' => exact h1 _ _ _ _ i (some 1) hl rfl (rest_eq (.set (off := i) (n := some 1) 0 (by simp) (fun m hm => by cases hm; omega) hl'))
  case newAPDU a b r =>
    intro e he
    simp only [sem, Option.some.injEq] at he
    subst he
    split
    · next ha hb hc =>
      split
      · exact hw
      · refine onArray_ind hw fun l hl => ?_
        unfold newAPDU
        have hnew : ∀ o x y z, P (o, [(a, x), (b, y), (MODULE, z)]) := by
          intro o x y z u hu m m' hm hm' _
          simp only [List.mem_cons, List.not_mem_nil, or_false] at hu
          rcases hu with rfl | rfl | rfl
          · simp [ha] at hm
          · simp [hb] at hm
          · simp [hc] at hm
        repeat' first
          | exact h0 _
          | exact hnew _ _ _ _
          | split
    · exact hw
  case rsaFinal c rnd r off len r' off' =>
    intro e he
    simp only [sem] at he
    split at he
    · next x a b hx ha hb =>
      rw [Option.map_eq_some_iff] at he
      obtain ⟨y, hy, rfl⟩ := he
      exact h1 _ _ _ _ _ _ hb rfl (rest_eq (by rw [told_returned]; exact rsaFinal_kept _ _ _ _ _ _ _ _ _ _ _ hy))
    · injection he with he; subst he; exact hw
  case aidGetBytes a r off =>
    intro e he
    simp only [sem, Option.some.injEq] at he
    subst he
    refine onArray_ind hw fun l hl => ?_
    split
    · intro u hu m m' hm hm' hn
      simp only [arrayToInt, List.mem_singleton] at hu
      subst hu
      simp only [hl] at hm hm'
      cases hm; cases hm'
      simp only [Resizes, not_and, Int.not_lt] at hn
      exact .inr ⟨_, _, rfl, rest_eq (by simp only [arrayToInt]; rw [told_returned]; exact getBytes_kept _ _ _ (hn trivial))⟩
    · exact hw
  case aidGetPartialBytes a o r off len =>
    intro e he
    simp only [sem, Option.some.injEq] at he
    subst he
    refine onArray_ind hw fun l hl => ?_
    split
    · intro u hu m m' hm hm' hn
      simp only [arrayToInt, List.mem_singleton] at hu
      subst hu
      simp only [hl] at hm hm'
      cases hm; cases hm'
      left
      unfold AID.getPartialBytes
      dsimp only
      repeat' split
      all_goals rfl
    · exact hw
  case arrayCopy a so d o n =>
    intro e he
    simp only [sem, Option.some.injEq] at he
    subst he
    refine onArray_ind hw fun l hl => onArray_ind hw fun l' hl' => ?_
    split
    · next e => exact h1 _ _ _ _ _ _ (e ▸ hl) rfl (rest_eq (copySelf_kept _ _ _ _))
    · exact h1 _ _ _ _ _ _ hl' rfl (rest_eq (copy_kept _ _ _ _ _))
  case arrayCopyNonAtomic a so d o n =>
    intro e he
    simp only [sem, Option.some.injEq] at he
    subst he
    refine onArray_ind hw fun l hl => onArray_ind hw fun l' hl' => ?_
    split
    · next e => exact h1 _ _ _ _ _ _ (e ▸ hl) rfl (rest_eq (copyNonAtomicRef_kept (Util.twoLists _ []) 0 _ 0 _ _))
    · exact h1 _ _ _ _ _ _ hl' rfl (rest_eq (copyNonAtomic_kept _ _ _ _ _))
  case apdu a op =>
    intro e he
    simp only [sem, Option.some.injEq] at he
    subst he
    refine onAPDU_ind hw fun r b raw buf x hx hr hb => hapdu _ _ _ _ _ _ _ (fun q _ h => h) (fun o => ?_) hx hr hb
    simp only [target, hx]
    cases op <;> cases x <;> rfl
  case sendBytesLong a q off len =>
    intro e he
    simp only [sem, Option.some.injEq] at he
    subst he
    refine onArray_ind hw fun l hl => onAPDU_ind hw fun r b raw buf x hx hr hb => hapdu _ _ _ _ _ _ _ (fun q _ h => h) (fun o => ?_) hx hr hb
    cases x <;> rfl
  case tlvToBytes k r off =>
    simp only [sem]
    refine onTLV_ind hw fun t x ht hx hl e he => ?_
    simp only [Option.some.injEq] at he; subst he
    refine onArray_ind hw fun m hm => ?_
    by_cases hneg : t.length < 0
    · exact h1 _ _ _ _ off none hm (by simp [target, ht, hneg]) (rest_byte rfl (tlvToBytes_any _ _ _))
    · exact h1 _ _ _ _ off _ hm (by simp only [target, ht, if_neg hneg]; rw [told_returned]) (rest_byte rfl (tlvToBytes_kept _ _ _ (by omega)))
  case getKey k r off =>
    intro e he
    simp only [sem, Option.some.injEq] at he
    subst he
    refine onArray_ind hw fun l hl => ?_
    split
    · next d hd => exact h1 _ _ _ _ off (some (d.size / 8)) hl (by simp [target, hd]) (rest_eq (getKey_kept _ _ _))
    · exact h0 _
    · exact hw
  all_goals first
    | (intro e he
       simp only [sem, Option.some.injEq] at he
       subst he)
    | (simp only [sem]
       refine onTLV_ind hw fun t x ht _ _ e he => ?_
       simp only [Option.some.injEq] at he; subst he)
  all_goals
    repeat' first
      | exact hw
      | exact h0 _
      | exact h1 _ _ _ _ _ _ (by assumption) rfl (by first
          | exact rest_eq (fill_kept _ _ _ _)
          | exact rest_eq (setShort_kept _ _ _)
          | exact rest_eq (setInt_kept _ _ _ _)
          | exact rest_eq (memory_kept _ _ _)
          | exact rest_eq (random_kept _ _ _ _)
          | exact rest_eq (bigToBytes_kept _ _ _ _ _)
          | exact rest_byte rfl (appendStatic_kept _ _ _ _)
          | (rw [told_returned]; first
              | exact rest_byte rfl (tagToBytes_kept _ _ _).1
              | exact rest_eq (getValue_kept _ _ _)
              | (split <;> exact rest_eq (getComponent_kept _ _ _ _))))
      | exact h2 _ _ _ _ _ _ _ _ (by assumption) rfl (by rw [told_returned]; first | exact rest_eq (digestFinal_kept _ hH _ _ _ _ _ _) | exact rest_eq (desFinal_kept _ _ _ _ _ _)) (by simp [kind])
      | refine onArray_ind hw fun l hl => ?_
      | split

/-- **C118** (cells). A call changes only the cells of lists that its arguments name (see `target`); all other cells of all lists keep what they hold, whether
the call succeeds or raises. `toBytes` of a tag or TLV, and the static `append`, moreover put cells above 127 into signed form, wherever they are in the list. -/
theorem C118_cells {env : CryptoEnv} {fuel : Nat} (hH : ∀ alg m, (env.hash alg m).length = (env.hash alg []).length) {w w' : Card} {s : Step}
    {o : Except Err Card.Out} (h : step env fuel w s = some (o, w')) {r : Nat} {l : List Int} (hl : listAt w r = some l) (hr : ¬ Resizes w r s) :
    ∃ l', listAt w' r = some l' ∧ l'.length = l.length ∧ ∀ j v, l[j]? = some v → (∀ off n, target w o s = some (r, off, n) → ¬ Among off n l.length j) →
      ∃ v', l'[j]? = some v' ∧ (v' = v ∨ signs s = true ∧ SameByte v v') := by
  obtain ⟨l', hl', hlen⟩ := C117_length h hl hr
  refine ⟨l', hl', hlen, fun j v hv hn => ?_⟩
  obtain ⟨e, he, ho, rfl⟩ := step_sem h
  subst ho
  have hw : w r = .array l := listAt_some hl
  have hw' := listAt_some hl'
  rcases put_mem w e.2 r with hp | ⟨u, hu, rfl, hp⟩
  · rw [hp, hw] at hw'
    cases hw'
    exact ⟨v, hv, .inl rfl⟩
  · rw [hp] at hw'
    rcases sem_kept env fuel hH w s e he u hu l l' hw hw' hr with rfl | ⟨off, n, ht, hk⟩
    · exact ⟨v, hv, .inl rfl⟩
    · obtain ⟨v', e1, e2⟩ := hk.out j v hv (hn off n ht)
      refine ⟨v', e1, ?_⟩
      unfold Rest at e2
      split at e2
      · next hs => exact .inr ⟨hs, e2⟩
      · exact .inl e2.symm

/-- No call of the program names the cell `j` of the list at `r`. -/
def Spares (env : CryptoEnv) (fuel : Nat) (w : Card) (prog : List Step) (r j : Nat) : Prop :=
  ∀ c ∈ calls env fuel w prog, ¬ Resizes c.1 r c.2 ∧ ∀ o w', step env fuel c.1 c.2 = some (o, w') → ∀ l, listAt c.1 r = some l →
    ∀ off n, target c.1 o c.2 = some (r, off, n) → ¬ Among off n l.length j

/-- **C118** (cells in programs). A cell that no call of a program names still holds the same byte after the program; the very same number if it was at most
127, or if the program writes no tags and TLVs out. -/
theorem C118_program {env : CryptoEnv} {fuel : Nat} (hH : ∀ alg m, (env.hash alg m).length = (env.hash alg []).length) {r j : Nat} :
    ∀ {prog : List Step} {w w' : Card} {outs : List (Except Err Card.Out)} {l : List Int} {v : Int}, run env fuel w prog = some (outs, w') →
    listAt w r = some l → l[j]? = some v → Spares env fuel w prog r j →
    ∃ l' v', listAt w' r = some l' ∧ l'.length = l.length ∧ l'[j]? = some v' ∧ SameByte v v' ∧ ((∀ s ∈ prog, signs s = false) → v' = v) := by
  intro prog
  induction prog with
  | nil =>
    intro w w' outs l v hr hl hv _
    simp only [run, Option.some.injEq, Prod.mk.injEq] at hr
    obtain ⟨_, rfl⟩ := hr
    exact ⟨l, v, hl, rfl, hv, sameByte_refl v, fun _ => rfl⟩
  | cons s ss ih =>
    intro w w' outs l v hr hl hv hs
    simp only [run] at hr
    cases he : step env fuel w s with
    | none => simp [he] at hr
    | some x =>
      obtain ⟨o, w1⟩ := x
      simp only [he] at hr
      cases hrr : run env fuel w1 ss with
      | none => simp [hrr] at hr
      | some q =>
        obtain ⟨outs1, w2⟩ := q
        simp only [hrr, Option.map_some, Option.some.injEq, Prod.mk.injEq] at hr
        obtain ⟨_, rfl⟩ := hr
        obtain ⟨n1, n2⟩ := hs (w, s) (by simp [calls])
        obtain ⟨l1, h1, h2, h3⟩ := C118_cells hH he hl n1
        obtain ⟨v1, h4, h5⟩ := h3 j v hv (n2 o w1 he l hl)
        have hb : SameByte v v1 := by
          rcases h5 with rfl | ⟨_, h⟩
          · exact sameByte_refl _
          · exact h
        obtain ⟨l2, v2, k1, k2, k3, k4, k5⟩ := ih hrr h1 h4 fun c hc => hs c (by simp [calls, he, hc])
        refine ⟨l2, v2, k1, k2.trans h2, k3, sameByte_trans _ _ _ hb k4, fun hall => ?_⟩
        rcases h5 with rfl | ⟨h, _⟩
        · exact k5 fun s' h' => hall s' (by simp [h'])
        · rw [hall s (by simp)] at h; cases h

/-! ### An example -/

private def env3 : CryptoEnv := ⟨true, true, ⟨fun _ _ => .error .typeError, fun _ _ => .error .typeError⟩, fun _ _ => [1, 2, 3]⟩

/-- A list with a cell above 127 in front, a tag and a digest object. -/
private def made : List Step := [.newArray 1 [200, 1, 2, 3, 4, 5, 6, 7, 8, 9], .newTag 2 true, .tagInitNumber 2 2 5, .getDigest 3 1]

/-- Calls that store into the list, behind the first cell; the last one raises after it has stored. -/
private def storing : List Step := [.setShort 1 1 515, .arrayFill 1 4 3 7, .arrayCopy 1 0 1 5 4, .digestFinal 3 1 0 2 1 3, .tagToBytes 2 1 3, .setShort 1 9 0]

private def cellsAfter : Option (List Int) := (run env3 10 blank (made ++ storing)).bind fun x => listAt x.2 1

/-- The first cell means the same byte, in signed form because of the tag written out behind it. -/
example : cellsAfter = some [-56, 2, 3, -91, 2, 3, 2, 3, 3, 0] := by decide +kernel

/-- No call of the program names the first cell. -/
example (w : Card) : Spares env3 10 w storing 1 0 := by
  have key : ∀ (off : Int) (n : Option Int) (L : Nat), 0 < off → ¬ Among off n L 0 := by
    rintro off n L h ⟨t, _, _, h1 | ⟨h1, h2⟩⟩ <;> omega
  intro c hc
  have := mem_calls _ _ _ hc
  simp only [storing, List.mem_cons, List.not_mem_nil, or_false] at this
  obtain ⟨c1, c2⟩ := c
  simp only at this
  rcases this with rfl | rfl | rfl | rfl | rfl | rfl <;>
    (refine ⟨by simp [Resizes], fun o w' _ l _ off n ht => key _ _ _ ?_⟩
     simp only [target, Option.some.injEq, Prod.mk.injEq] at ht
     omega)

end Verif.Props
