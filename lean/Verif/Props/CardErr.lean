import Verif.Props.CardLists
import Verif.Props.TLVErr
import Verif.Props.APDUWorld
import Verif.Spec.Raises
/-! C122: which exceptions each call can raise on a card in use. -/
namespace Verif.Props
open Verif.Py Verif.Model Verif.Model.Card Verif.Spec Verif.Spec.Card

namespace CErr

/-! ### The modules -/

theorem copyLoop_err (h : Heap) (s d : Nat) (so dOff : Int) (i n : Nat) (e : Err) (he : (Util.copyLoop h s so d dOff i n).1 = .error e) : e = .indexError := by
  induction n generalizing h i with
  | zero => cases he
  | succ n ih =>
    unfold Util.copyLoop at he
    split at he
    · next h1 => injection he with he; subst he; exact get_err _ _ _ h1
    · split at he
      · next h1 => injection he with he; subst he; exact set_error _ _ _ _ h1
      · exact ih _ _ he

theorem copyRef_err (h : Heap) (s d : Nat) (so dOff n : Int) (e : Err) (he : (Util.arrayCopyRef h s so d dOff n).1 = .error e) : e = .arrayIndexOutOfBounds := by
  unfold Util.arrayCopyRef at he
  simp only at he
  split at he
  · cases he
  · injection he with he; exact he.symm
  · next h1 h2 =>
    have := copyLoop_err _ _ _ _ _ _ _ _ (by rw [h2])
    exact absurd this h1

theorem copyNA_err (h : Heap) (s d : Nat) (so dOff n : Int) (e : Err) (he : (Util.arrayCopyNonAtomicRef h s so d dOff n).1 = .error e) : e = .nameError := by
  unfold Util.arrayCopyNonAtomicRef at he
  split at he
  · injection he with he; exact he.symm
  · next r h1 =>
    have := copyLoop_err _ _ _ _ _ _ _ _ he
    subst this
    exact (h1 _ (Prod.ext he rfl)).elim

theorem compare_err (a b : List Int) (so dOff n : Int) (e : Err) (he : Util.arrayCompare a so b dOff n = .error e) : e = .arrayIndexOutOfBounds := by
  have : ∀ i n e, Util.compareLoop a so b dOff i n = .error e → e = .indexError := by
    intro i n
    induction n generalizing i with
    | zero => intro e h; cases h
    | succ n ih =>
      intro e h
      unfold Util.compareLoop at h
      split at h
      · split at h
        · cases h
        · split at h
          · cases h
          · exact ih _ _ h
      · injection h with h; exact h.symm
  unfold Util.arrayCompare at he
  cases h : Util.compareLoop a so b dOff 0 (rangeLen n) with
  | ok v => rw [h] at he; cases he
  | error e' => rw [h, this _ _ _ h] at he; injection he with he; exact he.symm

theorem fill_err (l : List Int) (off n v : Int) (e : Err) (he : (Util.arrayFillNonAtomic l off n v).1 = .error e) : e = .arrayIndexOutOfBounds := by
  have : ∀ i n l e, (Util.fillLoop l off v i n).1 = .error e → e = .indexError := by
    intro i n
    induction n generalizing i with
    | zero => intro l e h; cases h
    | succ n ih =>
      intro l e h
      unfold Util.fillLoop at h
      split at h
      · next h1 => injection h with h; subst h; exact set_error _ _ _ _ h1
      · exact ih _ _ _ h
  unfold Util.arrayFillNonAtomic at he
  split at he
  · injection he with he; exact he.symm
  · next h1 => 
    have := this _ _ _ _ he
    subst this
    exact (h1 _ (Prod.ext he rfl)).elim

theorem getShort_err (l : List Int) (o : Int) (e : Err) (he : Util.getShort l o = .error e) : e = .arrayIndexOutOfBounds := by
  unfold Util.getShort at he
  split at he
  · next e' h => rw [get_err _ _ _ h] at he; injection he with he; exact he.symm
  · split at he
    · next e' h => rw [get_err _ _ _ h] at he; injection he with he; exact he.symm
    · cases he

theorem setShort_err (l : List Int) (o v : Int) (e : Err) (he : (Util.setShort l o v).1 = .error e) : e = .arrayIndexOutOfBounds := by
  unfold Util.setShort at he
  simp only at he
  split at he
  · injection he with he; exact he.symm
  · split at he
    · injection he with he; exact he.symm
    · cases he

theorem getInt_err (l : List Int) (o : Int) (e : Err) (he : JCint.getInt l o = .error e) : e = .indexError := by
  unfold JCint.getInt at he
  simp only [bind, Except.bind] at he
  repeat' split at he
  all_goals first
    | (next h => injection he with he; subst he; exact get_err _ _ _ h)
    | cases he

theorem setInt_err (l : List Int) (o v v' : Int) (e : Err) (he : (JCint.setInt l o v v').1 = .error e) : e = .indexError := by
  unfold JCint.setInt at he
  simp only at he
  repeat' split at he
  all_goals first
    | (next h => injection he with he; subst he; exact set_error _ _ _ _ h)
    | cases he

theorem memory_err (l : List Int) (o m : Int) (e : Err) (he : (JCSystem.getAvailableMemory3 (some l) o m).1 = .error e) : e = .nameError := by
  unfold JCSystem.getAvailableMemory3 at he
  simp only at he
  repeat' split at he
  all_goals first
    | (injection he with he; exact he.symm)
    | cases he

theorem random_err (rnd : Nat → Nat) (l : List Int) (o n : Int) (e : Err) (he : (RandomData.generateData rnd l o n).1 = .error e) : e = .crypto 1 ∨ e = .nameError := by
  unfold RandomData.generateData at he
  repeat' split at he
  · injection he with he; exact .inl he.symm
  · injection he with he; exact .inr he.symm
  · cases he

theorem update_err (d : MessageDigest) (l : List Int) (o n : Int) (e : Err) (he : (d.update l o n).1 = .error e) : e = .nameError := by
  unfold MessageDigest.update at he
  split at he
  · injection he with he; exact he.symm
  · cases he

theorem final_err (H : HashLib) (d : MessageDigest) (l : List Int) (o n : Int) (l' : List Int) (o' : Int) (e : Err) (he : (d.doFinal H l o n l' o').1 = .error e) :
    e = .nameError := by
  unfold MessageDigest.doFinal at he
  split at he
  · next h => injection he with he; subst he; exact update_err _ _ _ _ _ (by rw [h])
  · split at he
    · injection he with he; exact he.symm
    · cases he

theorem pinFill_err (buf : List Int) (a : PinArg) (o n m : Int) (e : Err) (he : (OwnerPIN.fill buf a o n m).1 = .error e) : e = .indexError := by
  have h1 : ∀ cs i buf e, (OwnerPIN.strLoop buf i cs).1 = .error e → e = .indexError := by
    intro cs
    induction cs with
    | nil => intro _ _ e h; cases h
    | cons c cs ih =>
      intro i buf e h
      unfold OwnerPIN.strLoop at h
      split at h
      · next h1 => injection h with h; subst h; exact set_error _ _ _ _ h1
      · exact ih _ _ _ h
  have h2 : ∀ pin k j buf e, (OwnerPIN.arrLoop pin o buf j k).1 = .error e → e = .indexError := by
    intro pin k
    induction k with
    | zero => intro _ _ e h; cases h
    | succ k ih =>
      intro j buf e h
      unfold OwnerPIN.arrLoop at h
      split at h
      · next h1 => injection h with h; subst h; exact get_err _ _ _ h1
      · split at h
        · next h1 => injection h with h; subst h; exact set_error _ _ _ _ h1
        · exact ih _ _ _ h
  have h3 : ∀ k i buf e, (OwnerPIN.zeroLoop buf i k).1 = .error e → e = .indexError := by
    intro k
    induction k with
    | zero => intro _ _ e h; cases h
    | succ k ih =>
      intro i buf e h
      unfold OwnerPIN.zeroLoop at h
      split at h
      · next h1 => injection h with h; subst h; exact set_error _ _ _ _ h1
      · exact ih _ _ _ h
  unfold OwnerPIN.fill at he
  simp only at he
  split at he
  · next e' b h =>
    injection he with he; subst he
    cases a with
    | str codes => exact h1 _ _ _ _ (congrArg Prod.fst h)
    | arr bytes => exact h2 _ _ _ _ _ (congrArg Prod.fst h)
  · exact h3 _ _ _ _ he

theorem check_err (p : OwnerPIN) (a : PinArg) (o n : Int) (e : Err) (he : (p.check a o n).1 = .error e) : e = .arrayIndexOutOfBounds ∨ e = .indexError := by
  unfold OwnerPIN.check at he
  simp only at he
  split at he
  · cases he
  · split at he
    · injection he with he; exact .inl he.symm
    · split at he
      · next h => injection he with he; subst he; exact .inr (pinFill_err _ _ _ _ _ _ (by rw [h]))
      · split at he <;> cases he

theorem pinUpdate_err (p : OwnerPIN) (a : PinArg) (o n : Int) (e : Err) (he : (p.update a o n).1 = .error e) :
    (∃ n, e = .pin n) ∨ e = .arrayIndexOutOfBounds ∨ e = .indexError := by
  unfold OwnerPIN.update at he
  split at he
  · injection he with he; exact .inl ⟨_, he.symm⟩
  · split at he
    · injection he with he; exact .inr (.inl he.symm)
    · split at he
      · next h => injection he with he; subst he; exact .inr (.inr (pinFill_err _ _ _ _ _ _ (by rw [h])))
      · cases he

theorem bigInit_err (x : BigNumber) (l : Option (List Int)) (o n f : Int) (e : Err) (he : (x.init l o n f).1 = .error e) :
    e = .arithmetic ∨ e = .nullPointer ∨ e = .indexError := by
  have loop : ∀ b c arr k i acc e, (BigNumber.initLoop b c arr o acc i k).1 = .error e → e = .indexError := by
    intro b c arr k
    induction k with
    | zero => intro _ _ e h; cases h
    | succ k ih =>
      intro i acc e h
      unfold BigNumber.initLoop at h
      split at h
      · next h1 => injection h with h; subst h; exact get_err _ _ _ h1
      · exact ih _ _ _ h
  unfold BigNumber.init at he
  split at he
  · injection he with he; exact .inl he.symm
  · split at he
    · injection he with he; exact .inr (.inl he.symm)
    · split at he
      · exact .inr (.inr (loop _ _ _ _ _ _ _ he))
      · split at he
        · exact .inr (.inr (loop _ _ _ _ _ _ _ he))
        · injection he with he; exact .inl he.symm

theorem operand_err (l : Option (List Int)) (o n f : Int) (e : Err) (he : BigNumber.operand l o n f = .error e) :
    e = .arithmetic ∨ e = .nullPointer ∨ e = .indexError ∨ e = .typeError := by
  unfold BigNumber.operand at he
  split at he
  · next h =>
    injection he with he; subst he
    rcases bigInit_err _ _ _ _ _ _ (by rw [h]) with h | h | h <;> simp [h]
  · split at he
    · cases he
    · injection he with he; simp [he.symm]

theorem bigOp_err (op : BigOp) (x : BigNumber) (l : Option (List Int)) (o n f : Int) (e : Err) (he : (Card.bigOp op x l o n f).1 = .error e) :
    e = .arithmetic ∨ e = .nullPointer ∨ e = .indexError ∨ e = .typeError := by
  have : ∀ g r, (BigNumber.combine g x r).1 = .error e → r = .error e ∨ e = .typeError := by
    intro g r h
    unfold BigNumber.combine at h
    split at h
    · injection h with h; subst h; exact .inl rfl
    · split at h
      · injection h with h; exact .inr h.symm
      · cases h
  cases op <;> simp only [Card.bigOp, BigNumber.add, BigNumber.subtract, BigNumber.multiply] at he <;>
    (rcases this _ _ he with h | h; exact operand_err _ _ _ _ _ h; simp [h])

theorem compareTo_err (x y : BigNumber) (e : Err) (he : x.compareTo y = .error e) : e = .typeError := by
  unfold BigNumber.compareTo at he
  repeat' split at he
  all_goals first
    | (injection he with he; exact he.symm)
    | cases he

theorem compareArr_err (x : BigNumber) (l : Option (List Int)) (o n f : Int) (e : Err) (he : x.compareToArray l o n f = .error e) :
    e = .arithmetic ∨ e = .nullPointer ∨ e = .indexError ∨ e = .typeError := by
  unfold BigNumber.compareToArray at he
  split at he
  · next h => injection he with he; subst he; exact operand_err _ _ _ _ _ h
  · simp [compareTo_err _ _ _ he]

theorem bigToBytes_err (x : BigNumber) (l : List Int) (o n f : Int) (e : Err) (he : (x.toBytes l o n f).1 = .error e) :
    e = .arithmetic ∨ e = .arrayIndexOutOfBounds ∨ e = .typeError := by
  unfold BigNumber.toBytes at he
  split at he
  · split at he
    · injection he with he; simp [he.symm]
    · generalize (if f = BigNumber.FORMAT_BCD then _ else _ : List Int) = arr at he
      simp only at he
      split at he
      · injection he with he; simp [he.symm]
      · simp [copy_err _ _ _ _ _ _ he]
  · injection he with he; simp [he.symm]

theorem rsaGet_err (k : RSAKey) (c : Option (List Int)) (l : List Int) (o : Int) (e : Err) (hc : k.initialized = true → c.isSome = true)
    (he : (k.getComponent c l o).1 = .error e) : e = .crypto 2 ∨ e = .arrayIndexOutOfBounds := by
  unfold RSAKey.getComponent at he
  split at he
  · injection he with he; exact .inl he.symm
  · next hi =>
    split at he
    · have := hc (by simpa using hi); cases this
    · split at he
      · next h => injection he with he; subst he; exact .inr (copy_err _ _ _ _ _ _ (by rw [h]))
      · cases he

theorem afterSet_err (py : Bool) (k : RSAKey) (e : Err) (he : (RSAKey.afterSet py k).1 = .error e) : e = .crypto 3 := by
  unfold RSAKey.afterSet at he
  repeat' split at he
  all_goals first
    | (injection he with he; exact he.symm)
    | cases he

theorem setModulus_err (py : Bool) (k : RSAKey) (l : List Int) (o n : Int) (e : Err) (he : (k.setModulus py l o n).1 = .error e) :
    e = .crypto 1 ∨ e = .crypto 4 ∨ e = .crypto 3 := by
  unfold RSAKey.setModulus at he
  split at he
  · injection he with he
    subst he
    split
    · exact .inr (.inl rfl)
    · exact .inl rfl
  · exact .inr (.inr (afterSet_err _ _ _ he))

theorem setTheKey_ok (py lg : Bool) (k : RSAKey) (t : TheKey) : (k.setTheKey py lg t).1 = .ok () := by
  simp [RSAKey.setTheKey, RSAKey.afterSet]

theorem getKey_err (k : DESKey) (l : List Int) (o : Int) (e : Err) (he : (k.getKey l o).1 = .error e) : e = .arrayIndexOutOfBounds ∨ e = .typeError := by
  unfold DESKey.getKey at he
  split at he
  · injection he with he; exact .inr he.symm
  · exact .inl (copy_err _ _ _ _ _ _ he)

theorem cipherGet_err (args : List Int) (e : Err) (he : cipherGetInstance args = .error e) : e = .crypto 3 ∨ e = .typeError ∨ e = .unboundLocalError := by
  have sel : ∀ a, selectCipher a = .error e → e = .crypto 3 ∨ e = .typeError := by
    intro a h
    unfold selectCipher at h
    repeat' split at h
    · injection h with h; exact .inr h.symm
    · cases h
    · cases h
    · injection h with h; exact .inl h.symm
  unfold cipherGetInstance at he
  split at he
  · rcases sel _ he with h | h <;> simp [h]
  · split at he
    · injection he with he; simp [he.symm]
    · rcases sel _ he with h | h <;> simp [h]
  · injection he with he; simp [he.symm]

theorem baseInit_err' (h : KeyHeap) (c : CipherBase) (k : KeyArg) (m : Int) (e : Err) (he : (c.init h k m).1 = .error e) : e = .crypto 1 ∨ e = .crypto 2 := by
  unfold CipherBase.init at he
  repeat' split at he
  · injection he with he; exact .inl he.symm
  · injection he with he; exact .inr he.symm
  · injection he with he; exact .inl he.symm
  · cases he

theorem rsaInit_err (h : KeyHeap) (c : RSACipher) (k : KeyArg) (m : Int) (e : Err) (he : (c.init h k m).1 = .error e) : e = .crypto 1 ∨ e = .crypto 2 := by
  unfold RSACipher.init at he
  split at he
  · next h1 => injection he with he; subst he; exact baseInit_err' _ _ _ _ _ (by rw [h1])
  · split at he
    · cases he
    · injection he with he; exact .inl he.symm

/-! pyDes raises `ValueError` only. -/

theorem baseNew_err (m : Nat) (iv : List Nat) (p : Option Nat) (pm : Nat) (e : Err) (he : PyDes.Base.new m iv p pm = .error e) : e = .valueError := by
  unfold PyDes.Base.new at he
  repeat' split at he
  all_goals first
    | (injection he with he; exact he.symm)
    | cases he

theorem desNew_err (k : List Nat) (m : Nat) (iv : List Nat) (p : Option Nat) (pm : Nat) (e : Err) (he : PyDes.Des.new k m iv p pm = .error e) : e = .valueError := by
  unfold PyDes.Des.new at he
  split at he
  · injection he with he; exact he.symm
  · split at he
    · next h => injection he with he; subst he; exact baseNew_err _ _ _ _ _ h
    · cases he

theorem tripleNew_err (k : List Nat) (m : Nat) (iv : List Nat) (p : Option Nat) (pm : Nat) (e : Err) (he : PyDes.Triple.new k m iv p pm = .error e) : e = .valueError := by
  unfold PyDes.Triple.new at he
  split at he
  · next h => injection he with he; subst he; exact baseNew_err _ _ _ _ _ h
  · unfold PyDes.Triple.ofBase at he
    split at he
    · injection he with he; exact he.symm
    · simp only [bind, Except.bind, pure, Except.pure] at he
      repeat' split at he
      all_goals first
        | (next h => injection he with he; subst he; exact desNew_err _ _ _ _ _ _ h)
        | (injection he with he; exact he.symm)
        | cases he
        | skip
      all_goals (next h => repeat' split at h)
      all_goals first
        | (injection he with he; subst he; exact desNew_err _ _ _ _ _ _ h)
        | cases h

theorem desInit_err (h : KeyHeap) (c : DESCipher) (k : KeyArg) (m : Int) (l : List Int) (o n : Int) (e : Err)
    (hk : ∀ r d, k = .key r → h r = .des d → d.initialized = true → d.key.isSome = true)
    (he : (c.init h k m l o n).1 = .error e) : e = .crypto 1 ∨ e = .crypto 2 ∨ (e = .arrayIndexOutOfBounds ∧ (Util.arrayCopy l o (fresh 8 0) 0 n).1 = .error e) ∨ e = .valueError := by
  unfold DESCipher.init at he
  split at he
  · next h1 =>
    injection he with he; subst he
    rcases baseInit_err' _ _ _ _ _ (by rw [h1]) with h | h <;> simp [h]
  · next r b h1 =>
    simp only at he
    split at he
    · injection he with he; exact .inl he.symm
    · next dk h2 =>
      split at he
      · injection he with he; exact .inl he.symm
      · split at he
        · next h3 =>
          injection he with he; subst he
          exact .inr (.inr (.inl ⟨copy_err _ _ _ _ _ _ (by rw [h3]), by rw [h3]⟩))
        · split at he
          · next h4 =>
            exfalso
            cases k with
            | notKey => simp [CipherBase.init] at h1
            | key r' =>
              unfold CipherBase.init at h1
              simp only at h1
              split at h1
              · cases h1
              · next hi =>
                split at h1
                · cases h1
                · simp only [Prod.mk.injEq, Except.ok.injEq] at h1
                  have hr := h1.1
                  subst hr
                  have := hk r' dk rfl h2 (by rw [h2] at hi; simpa [KeyObj.isInitialized] using hi)
                  rw [h4] at this; cases this
          · split at he
            · split at he
              · next h5 => injection he with he; subst he; exact .inr (.inr (.inr (desNew_err _ _ _ _ _ _ h5)))
              · cases he
            · split at he
              · next h5 => injection he with he; subst he; exact .inr (.inr (.inr (tripleNew_err _ _ _ _ _ _ h5)))
              · cases he

/-- Raises nothing but `ValueError`. -/
def VE {α : Type} (x : Except Err α) : Prop := ∀ e, x = .error e → e = .valueError

theorem VE.ok {α : Type} (a : α) : VE (.ok a : Except Err α) := fun _ h => by cases h
theorem VE.err {α : Type} : VE (.error .valueError : Except Err α) := fun _ h => by injection h with h; exact h.symm
theorem VE.bind {α β : Type} {x : Except Err α} {f : α → Except Err β} (hx : VE x) (hf : ∀ a, VE (f a)) : VE (x >>= f) := by
  intro e h
  cases x with
  | error e' => injection h with h; subst h; exact hx _ rfl
  | ok a => exact hf a e h

theorem crypt_ve (d : PyDes.Des) (m : List Nat) (b : Bool) : VE (d.crypt m b) := by
  unfold PyDes.Des.crypt
  split
  · exact .ok _
  · simp only
    split
    · next e h =>
      intro e' h'
      injection h' with h'; subst h'
      repeat' split at h
      all_goals first
        | (injection h with h; exact h.symm)
        | cases h
    · split
      · exact .err
      · exact .ok _

theorem pad_ve (b : PyDes.Base) (m : List Nat) (p pm : Option Nat) : VE (b.padData m p pm) := by
  unfold PyDes.Base.padData
  simp only
  repeat' split
  all_goals first
    | exact .ok _
    | exact .err

theorem unpad_ve (b : PyDes.Base) (m : List Nat) (p pm : Option Nat) : VE (b.unpadData m p pm) := by
  unfold PyDes.Base.unpadData
  split
  · exact .ok _
  · split
    · exact .err
    · simp only
      split
      · split <;> exact .ok _
      · split <;> exact .ok _

theorem setIV_ve (d : PyDes.Des) (iv : List Nat) : VE (d.setIV iv) := by
  unfold PyDes.Des.setIV PyDes.Base.setIV
  split
  · next h => split at h
              · injection h with h; subst h; exact .err
              · cases h
  · exact .ok _

theorem setIVs_ve (t : PyDes.Triple) (iv : List Nat) : VE (t.setIVs iv) :=
  (setIV_ve _ _).bind fun _ => (setIV_ve _ _).bind fun _ => (setIV_ve _ _).bind fun _ => .ok _

theorem encLoop_ve (bs : List (List Nat)) : ∀ t : PyDes.Triple, VE (t.encLoop bs) := by
  induction bs with
  | nil => intro t; exact .ok _
  | cons b bs ih =>
    intro t
    exact (crypt_ve _ _ _).bind fun _ => (crypt_ve _ _ _).bind fun _ => (crypt_ve _ _ _).bind fun _ => (setIVs_ve _ _).bind fun _ =>
      (ih _).bind fun _ => .ok _

theorem decLoop_ve (bs : List (List Nat)) : ∀ t : PyDes.Triple, VE (t.decLoop bs) := by
  induction bs with
  | nil => intro t; exact .ok _
  | cons b bs ih =>
    intro t
    exact (crypt_ve _ _ _).bind fun _ => (crypt_ve _ _ _).bind fun _ => (crypt_ve _ _ _).bind fun _ => (setIVs_ve _ _).bind fun _ =>
      (ih _).bind fun _ => .ok _

theorem desEnc_ve (d : PyDes.Des) (m : List Nat) : VE (d.encrypt m none none) := by
  unfold PyDes.Des.encrypt
  split
  · next h => intro e' h'; injection h' with h'; subst h'; exact pad_ve _ _ _ _ _ h
  · exact crypt_ve _ _ _

theorem desDec_ve (d : PyDes.Des) (m : List Nat) : VE (d.decrypt m none none) := by
  unfold PyDes.Des.decrypt
  split
  · next h => intro e' h'; injection h' with h'; subst h'; exact crypt_ve _ _ _ _ h
  · exact unpad_ve _ _ _ _

theorem tripleEnc_ve (t : PyDes.Triple) (m : List Nat) : VE (t.encrypt m none none) := by
  unfold PyDes.Triple.encrypt
  refine (pad_ve _ _ _ _).bind fun _ => ?_
  split
  · exact (setIVs_ve _ _).bind fun _ => encLoop_ve _ _
  · exact (crypt_ve _ _ _).bind fun _ => (crypt_ve _ _ _).bind fun _ => (crypt_ve _ _ _).bind fun _ => .ok _

theorem tripleDec_ve (t : PyDes.Triple) (m : List Nat) : VE (t.decrypt m none none) := by
  unfold PyDes.Triple.decrypt
  split
  · exact (setIVs_ve _ _).bind fun _ => (decLoop_ve _ _).bind fun _ => (unpad_ve _ _ _ _).bind fun _ => .ok _
  · exact (crypt_ve _ _ _).bind fun _ => (crypt_ve _ _ _).bind fun _ => (crypt_ve _ _ _).bind fun _ => (unpad_ve _ _ _ _).bind fun _ => .ok _

theorem runObj_ve (o : DesObj) (b : Bool) (m : List Nat) : VE (DESCipher.runObj o b m) := by
  intro e he
  cases o with
  | single d =>
    unfold DESCipher.runObj at he
    dsimp only at he
    split at he
    · next h =>
      injection he with he; subst he
      split at h
      · exact desEnc_ve _ _ _ h
      · exact desDec_ve _ _ _ h
    · cases he
  | triple t =>
    unfold DESCipher.runObj at he
    dsimp only at he
    split at he
    · next h =>
      injection he with he; subst he
      split at h
      · exact tripleEnc_ve _ _ _ h
      · exact tripleDec_ve _ _ _ h
    · cases he

theorem desFinal_err (c : DESCipher) (l : List Int) (o n : Int) (l' : List Int) (o' : Int) (e : Err) (hc : c.base.initialized = true → c.cipher.isSome = true)
    (he : (c.doFinal l o n l' o').1 = .error e) : e = .crypto 4 ∨ e = .arrayIndexOutOfBounds ∨ e = .valueError := by
  unfold DESCipher.doFinal at he
  split at he
  · injection he with he; exact .inl he.symm
  · next hi =>
    split at he
    · next h => have := hc (by simpa using hi); rw [h] at this; cases this
    · split at he
      · next h => injection he with he; subst he; exact .inr (.inl (copy_err _ _ _ _ _ _ (by rw [h])))
      · split at he
        · next h => injection he with he; subst he; exact .inr (.inr (runObj_ve _ _ _ _ h))
        · simp only at he
          split at he
          · next h => injection he with he; subst he; exact .inr (.inl (copy_err _ _ _ _ _ _ (by rw [h])))
          · cases he

theorem rsaFinal_err (heap : KeyHeap) (ops : RSAOps) (lg : Bool) (rnd : List Nat) (c : RSACipher) (l : List Int) (o n : Int) (l' : List Int) (o' : Int) (e : Err)
    (y : Res (List Int) Int) (hy : c.doFinal heap ops lg rnd l o n l' o' = some y) (he : y.1 = .error e) :
    (e = .crypto 4 ∨ e = .crypto 1 ∨ e = .arrayIndexOutOfBounds ∨ e = .valueError ∨ e = .attributeError) ∨ ∃ h n, ops.enc h n = .error e ∨ ops.dec h n = .error e := by
  unfold RSACipher.doFinal at hy
  split at hy
  · cases hy; injection he with he; simp [he.symm, INVALID_INIT]
  · split at hy
    · cases hy; injection he with he; simp [he.symm]
    · cases hy; injection he with he; simp [he.symm]
    · split at hy
      · next h => cases hy; injection he with he; subst he; simp [copy_err _ _ _ _ _ _ (congrArg Prod.fst h)]
      · simp only at hy
        split at hy
        · cases hy
        · next h =>
          cases hy
          injection he with he; subst he
          split at h
          · unfold RSACipher.emeEnc at h
            split at h
            · simp only [Option.some.injEq, Except.error.injEq] at h; simp [h.symm, ILLEGAL_VALUE]
            · split at h <;> simp at h
          · simp at h
        · split at hy
          · cases hy; injection he with he; simp [he.symm, ILLEGAL_VALUE]
          · split at hy
            · cases hy; injection he with he; simp [he.symm]
            · split at hy
              · next h =>
                cases hy; injection he with he; subst he
                split at h
                · exact .inr ⟨_, _, .inl h⟩
                · split at h
                  · exact .inr ⟨_, _, .inl h⟩
                  · exact .inr ⟨_, _, .inr h⟩
              · split at hy
                · next h =>
                  cases hy; injection he with he; subst he
                  split at h
                  · unfold RSACipher.emeDec at h
                    split at h
                    · injection h with h; simp [h.symm, ILLEGAL_VALUE]
                    · split at h
                      · next h1 =>
                        injection h with h; subst h
                        unfold RSACipher.index0From3 at h1
                        split at h1
                        · injection h1 with h1; simp [h1.symm]
                        · cases h1
                      · cases h
                  · cases h
                · split at hy
                  · next h => cases hy; injection he with he; subst he; simp [copy_err _ _ _ _ _ _ (congrArg Prod.fst h)]
                  · cases hy; cases he

/-! ### APDUs -/

theorem copyRange_err' (src dst : List Int) (so d : Int) (i n : Nat) (e : Err) (h : (copyRange src so dst d i n).1 = .error e) : e = .indexError := by
  induction n generalizing dst i with
  | zero => cases h
  | succ n ih =>
    unfold copyRange at h
    split at h
    · next h1 => injection h with h; subst h; exact get_err _ _ _ h1
    · split at h
      · next h1 => injection h with h; subst h; exact set_error _ _ _ _ h1
      · exact ih _ _ h

/-- The exceptions of a call on an APDU. -/
theorem apduStep_err (a r b : Nat) (raw buf : List Int) (op : APDU.Op) (x : APDUObj) (hx : ∀ h, x = .half h → h.state = 0 ∨ h.state = 3) (e : Err)
    (he : (apduStep a r b raw buf op x).1 = .error e) : raises (.apdu a op) e := by
  cases x with
  | half h =>
    have hs := hx h rfl
    simp only [apduStep] at he
    have he := map_error _ _ _ he
    have hs : (⟨buf, h.state⟩ : HalfAPDU).state = 0 ∨ (⟨buf, h.state⟩ : HalfAPDU).state = 3 := hs
    generalize (⟨buf, h.state⟩ : HalfAPDU) = y at he hs
    clear hx
    cases op <;> simp only [raises] <;> unfold HalfAPDU.step at he <;> dsimp only at he
    case receiveBytes =>
      rw [if_pos (by simp only [APDU.STATE_PARTIAL_INCOMING, APDU.STATE_OUTGOING]; omega)] at he; injection he with he; simp [he.symm, APDU.ILLEGAL_USE]
    case sendBytesLong => injection he with he; simp [he.symm]
    case poke =>
      split at he
      · next h1 => injection he with he; subst he; exact set_error _ _ _ _ h1
      · cases he
    all_goals
      split at he <;> (injection he with he; simp [he.symm, APDU.ILLEGAL_USE])
  | full x =>
    simp only [apduStep] at he
    have he := map_error _ _ _ he
    generalize hy : ({ x with raw := raw, buffer := buf } : APDU) = y at he
    clear hy hx
    have send : ∀ (z : APDU) d o n, (z.sendFrom d o n).1 = .error e → e = .apdu 1 ∨ e = .attributeError := by
      intro z d o n h
      unfold APDU.sendFrom at h
      split at h
      · injection h with h; exact .inr h.symm
      · split at h
        · injection h with h; exact .inl h.symm
        · cases h
    have send' : ∀ (z : APDU) o n, (z.sendBytes o n).1 = .error e → e = .apdu 2 ∨ e = .apdu 1 ∨ e = .attributeError := by
      intro z o n h
      unfold APDU.sendBytes at h
      split at h
      · injection h with h; exact .inl h.symm
      · exact .inr (send _ _ _ _ h)
    have len : ∀ (z : APDU) n, (z.setOutgoingLength n).1 = .error e → e = .apdu 2 ∨ e = .apdu 0 := by
      intro z n h
      unfold APDU.setOutgoingLength at h
      split at h
      · injection h with h; exact .inl h.symm
      · split at h
        · injection h with h; exact .inr h.symm
        · cases h
    have out : ∀ (z : APDU), z.setOutgoing.1 = .error e → e = .apdu 2 := by
      intro z h
      unfold APDU.setOutgoing at h
      split at h
      · injection h with h; exact h.symm
      · cases h
    cases op <;> simp only [APDU.step] at he <;> simp only [raises]
    case setIncomingAndReceive =>
      unfold APDU.setIncomingAndReceive at he
      split at he
      · injection he with he; simp [he.symm, APDU.ILLEGAL_USE]
      · split at he
        · injection he with he; simp [he.symm, APDU.SW_WRONG_LENGTH]
        · simp only at he
          split at he
          · next h1 => injection he with he; subst he; simp [copyRange_err' _ _ _ _ _ _ _ (congrArg Prod.fst h1)]
          · cases he
    case receiveBytes =>
      unfold APDU.receiveBytes at he
      split at he
      · injection he with he; simp [he.symm, APDU.ILLEGAL_USE]
      · simp only at he
        split at he
        · next h1 => injection he with he; subst he; simp [copyRange_err' _ _ _ _ _ _ _ (congrArg Prod.fst h1)]
        · cases he
    case setOutgoing => exact .inl (out _ he)
    case setOutgoingLength => rcases len _ _ (map_error _ _ _ he) with h | h <;> simp [h]
    case sendBytes => exact send' _ _ _ (map_error _ _ _ he)
    case sendBytesLong =>
      have he := map_error _ _ _ he
      unfold APDU.sendBytesLong at he
      split at he
      · next h => simp only [APDU.STATE_PARTIAL_OUTGOING, APDU.STATE_OUTGOING_LENGTH_KNOWN] at h; omega
      · exact send _ _ _ _ he
    case setOutgoingAndSend =>
      have he := map_error _ _ _ he
      unfold APDU.setOutgoingAndSend at he
      split at he
      · next h => injection he with he; subst he; exact .inl (out _ (congrArg Prod.fst h))
      · split at he
        · next h => injection he with he; subst he; rcases len _ _ (congrArg Prod.fst h) with h | h <;> simp [h]
        · rcases send' _ _ _ he with h | h | h <;> simp [h]
    case poke =>
      have he := map_error _ _ _ he
      unfold APDU.poke at he
      split at he
      · next h1 => injection he with he; subst he; exact set_error _ _ _ _ h1
      · cases he

/-! ### What holds for every object on a card -/

/-- An APDU whose constructor failed is in state 0 or 3; a key that says it is initialized has its parts; a DES cipher that is initialized has its
pyDes object. -/
def Good : Obj → Prop
  | .apdu _ _ (.half h) => h.state = 0 ∨ h.state = 3
  | .key (.rsa k) => k.initialized = true → k.exponent.isSome = true ∧ k.modulus.isSome = true
  | .key (.des k) => k.initialized = true → k.key.isSome = true
  | .des c => c.base.initialized = true → c.cipher.isSome = true
  | _ => True

/-- The kinds of which `Good` says something. -/
def careful : List Kind := [.apdu, .rsaPublic, .rsaPrivate, .desKey, .des]

theorem good_other {o : Obj} (h : kind o ∉ careful) : Good o := by
  cases o with
  | key k => cases k with
    | rsa k => simp only [kind, careful] at h; split at h <;> simp at h
    | des k => simp [kind, careful] at h
  | apdu r b x => simp [kind, careful] at h
  | des c => simp [kind, careful] at h
  | _ => trivial

theorem afterSet_good (py : Bool) (k : RSAKey) (h : k.initialized = true → k.exponent.isSome = true ∧ k.modulus.isSome = true) :
    (RSAKey.afterSet py k).2.initialized = true → (RSAKey.afterSet py k).2.exponent.isSome = true ∧ (RSAKey.afterSet py k).2.modulus.isSome = true := by
  unfold RSAKey.afterSet
  split
  · next m x hm hx => repeat' split
                      all_goals simp [hm, hx]
  · exact h

theorem desInit_good (h : KeyHeap) (c : DESCipher) (k : KeyArg) (m : Int) (l : List Int) (o n : Int) (hc : c.base.initialized = true → c.cipher.isSome = true) :
    (c.init h k m l o n).2.base.initialized = true → (c.init h k m l o n).2.cipher.isSome = true := by
  have base : ∀ r b, c.base.init h k m = (r, b) → b.initialized = true → c.base.initialized = true := by
    intro r b hb
    unfold CipherBase.init at hb
    repeat' split at hb
    all_goals (simp only [Prod.mk.injEq] at hb; rw [← hb.2]; exact id)
  unfold DESCipher.init
  split
  · next h1 => intro hi; exact hc (base _ _ h1 hi)
  · next h1 =>
    simp only
    repeat' split
    all_goals first
      | (intro hi; exact hc (base _ _ h1 hi))
      | (intro _; rfl)

theorem desFinal_good (c : DESCipher) (l : List Int) (o n : Int) (l' : List Int) (o' : Int) (hc : c.base.initialized = true → c.cipher.isSome = true) :
    (c.doFinal l o n l' o').2.2.base.initialized = true → (c.doFinal l o n l' o').2.2.cipher.isSome = true := by
  unfold DESCipher.doFinal
  repeat' split
  all_goals first
    | exact hc
    | skip
  all_goals simp only
  all_goals split
  all_goals (intro _; rfl)

theorem apduStep_good (a r b : Nat) (raw buf : List Int) (op : APDU.Op) (x : APDUObj) (hx : Good (.apdu r b x)) : ∀ u ∈ (apduStep a r b raw buf op x).2, Good u.2 := by
  intro u hu
  cases x with
  | full x =>
    simp only [apduStep, List.mem_cons, List.not_mem_nil, or_false] at hu
    rcases hu with rfl | rfl | rfl <;> simp [Good, bare]
  | half h =>
    simp only [apduStep, List.mem_cons, List.not_mem_nil, or_false] at hu
    rcases hu with rfl | rfl
    · simp only [bare, Good]
      have hx : h.state = 0 ∨ h.state = 3 := hx
      cases op <;> unfold HalfAPDU.step <;> dsimp only <;> (try split) <;> first | exact hx | exact .inr rfl
    · trivial

theorem good_step {env : CryptoEnv} {fuel : Nat} {w : Card} {s : Step} {e : Eff} (he : sem env fuel w s = some e) (hw : ∀ r, Good (w r)) : ∀ u ∈ e.2, Good u.2 := by
  intro u hu
  have hk := written env fuel w s e he u hu
  by_cases hc : ∃ k ∈ changes s, k ∈ careful
  case neg => exact good_other fun h => hc ⟨_, hk, h⟩
  case pos =>
    have small : kind u.2 ∉ careful → Good u.2 := good_other
    cases s <;> simp only [changes, careful, List.mem_cons, List.not_mem_nil, or_false, exists_eq_or_imp, exists_eq_left] at hc <;> simp only [sem, Option.some.injEq] at he
    all_goals try (exfalso; revert hc; simp only [false_and, exists_false, imp_self]; done)
    all_goals try (exact absurd hc (by decide))
    case newAPDU a b r =>
      clear hk hc small
      subst he
      split at hu
      · split at hu
        · simp [wrong] at hu
        · simp only [onArray] at hu
          split at hu
          · simp only [Card.newAPDU] at hu
            repeat' split at hu
            all_goals simp only [List.mem_cons, List.not_mem_nil, or_false] at hu
            · rcases hu with rfl | rfl | rfl <;> simp [Good, bare]
            · rcases hu with rfl | rfl | rfl <;> simp [Good, APDU.STATE_INITIAL]
          · simp [wrong] at hu
      · simp [wrong] at hu
    case apdu a op =>
      subst he
      simp only [onAPDU] at hu
      split at hu
      · next r b x ha => simp only [onArray] at hu
                         split at hu
                         · split at hu
                           · exact apduStep_good _ _ _ _ _ _ _ (by have := hw a; rw [ha] at this; exact this) _ hu
                           · simp [wrong] at hu
                         · simp [wrong] at hu
      · simp [wrong] at hu
    case sendBytesLong a r off len =>
      subst he
      simp only [onArray, onAPDU] at hu
      split at hu
      · split at hu
        · next r b x ha => split at hu
                           · split at hu
                             · exact apduStep_good _ _ _ _ _ _ _ (by have := hw a; rw [ha] at this; exact this) _ hu
                             · simp [wrong] at hu
                           · simp [wrong] at hu
        · simp [wrong] at hu
      · simp [wrong] at hu
    case buildKey k args =>
      subst he
      split at hu
      · simp at hu
      · simp at hu
      · next x hx =>
        simp only [make] at hu
        split at hu
        · simp only [List.mem_cons, List.not_mem_nil, or_false] at hu
          subst hu
          unfold Model.buildKey at hx
          repeat' split at hx
          all_goals try (simp at hx; done)
          all_goals (simp only [Except.ok.injEq, Option.some.injEq] at hx; subst hx; simp [Good, RSAKey.new, DESKey.new])
        · simp [wrong] at hu
    case setKey k r off =>
      subst he
      simp only [onArray] at hu
      split at hu
      · split at hu
        · simp only [List.mem_cons, List.not_mem_nil, or_false] at hu; subst hu; simp [Good, DESKey.setKey]
        · simp at hu
        · simp [wrong] at hu
      · simp [wrong] at hu
    case setRSA k x r off len =>
      subst he
      simp only [onArray] at hu
      split at hu
      · split at hu
        · next y hy =>
          have hg : Good (.key (.rsa y)) := by rw [← hy]; exact hw k
          simp only [List.mem_cons, List.not_mem_nil, or_false] at hu; subst hu
          cases x with
          | true => exact afterSet_good _ _ fun h => ⟨rfl, (hg h).2⟩
          | false =>
            simp only [Bool.false_eq_true, if_false, RSAKey.setModulus]
            split
            · exact hg
            · exact afterSet_good _ _ fun h => ⟨(hg h).1, rfl⟩
        · simp at hu
        · simp [wrong] at hu
      · simp [wrong] at hu
    case setTheKey k t =>
      subst he
      split at hu
      · simp only [List.mem_cons, List.not_mem_nil, or_false] at hu; subst hu
        exact afterSet_good _ _ fun _ => ⟨rfl, rfl⟩
      · simp at hu
      · simp [wrong] at hu
    case newPair p i j alg len =>
      subst he
      repeat' split at hu
      all_goals try (simp [wrong] at hu; done)
      simp only [List.mem_cons, List.not_mem_nil, or_false] at hu
      rcases hu with rfl | rfl | rfl <;> simp [Good, RSAKey.new]
    case genKeyPair p i j t =>
      subst he
      repeat' split at hu
      all_goals try (simp [wrong] at hu; done)
      simp only [genPair] at hu
      repeat' split at hu
      all_goals try (simp [wrong] at hu; done)
      simp only [List.mem_cons, List.not_mem_nil, or_false] at hu
      rcases hu with rfl | rfl | rfl
      · exact afterSet_good _ _ fun _ => ⟨rfl, rfl⟩
      · exact afterSet_good _ _ fun _ => ⟨rfl, rfl⟩
      · trivial
    case getCipher c args =>
      subst he
      split at hu
      · simp at hu
      · simp only [make] at hu
        split at hu
        · simp only [List.mem_cons, List.not_mem_nil, or_false] at hu; subst hu; simp [Good, DESCipher.new, CipherBase.new]
        · simp [wrong] at hu
      · simp only [make] at hu
        split at hu
        · simp only [List.mem_cons, List.not_mem_nil, or_false] at hu; subst hu; trivial
        · simp [wrong] at hu
    case desInit c k mode r off len =>
      subst he
      simp only [onArray] at hu
      split at hu
      · split at hu
        · next x hx =>
          have hg : Good (.des x) := by rw [← hx]; exact hw c
          simp only [List.mem_cons, List.not_mem_nil, or_false] at hu; subst hu
          exact desInit_good _ _ _ _ _ _ _ hg
        · simp [wrong] at hu
      · simp [wrong] at hu
    case desInitDefault c k mode =>
      subst he
      split at hu
      · next x hx =>
        have hg : Good (.des x) := by rw [← hx]; exact hw c
        simp only [List.mem_cons, List.not_mem_nil, or_false] at hu; subst hu
        exact desInit_good _ _ _ _ _ _ _ hg
      · simp [wrong] at hu
    case desFinal c r off len r' off' =>
      subst he
      simp only [onArray] at hu
      split at hu
      · split at hu
        · split at hu
          · next x hx =>
            have hg : Good (.des x) := by rw [← hx]; exact hw c
            simp only [List.mem_cons, List.not_mem_nil, or_false] at hu
            rcases hu with rfl | rfl
            · trivial
            · exact desFinal_good _ _ _ _ _ _ hg
          · simp [wrong] at hu
        · simp [wrong] at hu
      · simp [wrong] at hu

theorem good_run {env : CryptoEnv} {fuel : Nat} {prog : List Step} {outs : List (Except Err Card.Out)} {w : Card}
    (h : run env fuel blank prog = some (outs, w)) : ∀ r, Good (w r) := by
  refine run_induct (P := fun w => ∀ r, Good (w r)) (fun w s e he hw r => ?_) prog blank outs w h ?_
  · rcases put_mem w e.2 r with h' | ⟨u, hu, rfl, h'⟩
    · rw [h']; exact hw r
    · rw [h']; exact good_step he hw u hu
  · intro r; simp only [blank]; split <;> trivial


/-! ### The buffer of the current APDU -/

theorem setSlice_grows (l v : List Int) (o : Int) : l.length ≤ (setSlice l o (o + v.length) v).length := by
  simp only [setSlice, List.length_append, List.length_take, List.length_drop, bound]
  split <;> split <;> omega

theorem getBytes_grows (a : AID) (l : List Int) (o : Int) : l.length ≤ (a.getBytes l o).2.length := by
  unfold AID.getBytes
  split
  · exact Nat.le_refl _
  · exact setSlice_grows _ _ _

/-- An APDU object keeps its lists. -/
theorem apdu_same {env : CryptoEnv} {fuel : Nat} {w : Card} {s : Step} {e : Eff} (he : sem env fuel w s = some e) (hn : ∀ a b r, s ≠ .newAPDU a b r) :
    ∀ u ∈ e.2, ∀ r b x, u.2 = .apdu r b x → ∃ y, w u.1 = .apdu r b y := by
  intro u hu r b x hx
  have hk := written env fuel w s e he u hu
  rw [hx] at hk
  have key : ∀ a r' b' raw buf op y, w a = .apdu r' b' y → u ∈ (apduStep a r' b' raw buf op y).2 → ∃ y, w u.1 = .apdu r b y := by
    intro a r' b' raw buf op y ha hu
    cases y with
    | full y =>
      simp only [apduStep, List.mem_cons, List.not_mem_nil, or_false] at hu
      rcases hu with rfl | rfl | rfl <;> simp only [Obj.apdu.injEq, reduceCtorEq] at hx
      obtain ⟨rfl, rfl, _⟩ := hx
      exact ⟨_, ha⟩
    | half y =>
      simp only [apduStep, List.mem_cons, List.not_mem_nil, or_false] at hu
      rcases hu with rfl | rfl <;> simp only [Obj.apdu.injEq, reduceCtorEq] at hx
      obtain ⟨rfl, rfl, _⟩ := hx
      exact ⟨_, ha⟩
  cases s <;> try (simp [changes, kind] at hk; done)
  case newAPDU a b r => exact absurd rfl (hn a b r)
  case apdu a op =>
    simp only [sem, Option.some.injEq, onAPDU] at he
    subst he
    split at hu
    · next ha => simp only [onArray] at hu
                 split at hu
                 · split at hu
                   · exact key _ _ _ _ _ _ _ ha hu
                   · simp [wrong] at hu
                 · simp [wrong] at hu
    · simp [wrong] at hu
  case sendBytesLong a r off len =>
    simp only [sem, Option.some.injEq, onAPDU, onArray] at he
    subst he
    split at hu
    · split at hu
      · next ha => split at hu
                   · split at hu
                     · exact key _ _ _ _ _ _ _ ha hu
                     · simp [wrong] at hu
                   · simp [wrong] at hu
      · simp [wrong] at hu
    · simp [wrong] at hu

/-- The buffer of the current APDU is not empty, and no APDU was made from it. -/
def CurrentBuffer (w : Card) : Prop :=
  ∀ a, w MODULE = .apduModule (some a) → ∃ r b x l, w a = .apdu r b x ∧ w b = .array l ∧ l ≠ [] ∧ ∀ a' r' b' x', w a' = .apdu r' b' x' → r' ≠ b

theorem header_nonempty {l buf : List Int} (h : World.headerBuffer l = .ok buf) : buf ≠ [] := by
  have done : ∀ (x : Res (List Int) Unit) l, APDU.done x = .ok l → l = x.2 := by
    intro x l h
    unfold APDU.done at h
    split at h
    · injection h with h; exact h.symm
    · cases h
  have : buf.length = 257 := by
    unfold World.headerBuffer at h
    simp only [bind, Except.bind, pure, Except.pure] at h
    split at h
    · cases h
    · next b0 h0 =>
      have h0 : b0.length = 257 := by rw [done _ _ h0, copyRange_len]; exact List.length_replicate
      split at h
      · split at h
        · cases h
        · rw [done _ _ h, copyRange_len, h0]
      · injection h with h; rw [← h, h0]
  intro h0; rw [h0] at this; cases this

theorem init_nonempty {l : List Int} {x : APDU} (h : APDU.init l = .ok x) : x.buffer ≠ [] := by
  have done : ∀ (x : Res (List Int) Unit) l, APDU.done x = .ok l → l = x.2 := by
    intro x l h
    unfold APDU.done at h
    split at h
    · injection h with h; exact h.symm
    · cases h
  have : x.buffer.length = 257 := by
    unfold APDU.init at h
    simp only [bind, Except.bind, pure, Except.pure, throw, throwThe, MonadExceptOf.throw] at h
    split at h
    · cases h
    · split at h
      · cases h
      · next b0 h0 =>
        have h0 : b0.length = 257 := by rw [done _ _ h0, copyRange_len]; exact List.length_replicate
        by_cases hn : (l.length : Int) > 4
        · simp only [if_pos hn] at h
          split at h
          · cases h
          · split at h
            · cases h
            · next b1 h1 =>
              have h1 : b1.length = 257 := by rw [done _ _ h1, copyRange_len, h0]
              repeat' split at h
              all_goals first
                | (injection h with h; rw [← h]; exact h1)
                | cases h
        · simp only [if_neg hn] at h
          repeat' split at h
          all_goals first
            | (injection h with h; rw [← h]; exact h0)
            | cases h
  intro h0; rw [h0] at this; cases this

theorem current_step {env : CryptoEnv} {fuel : Nat} {w : Card} {s : Step} {e : Eff} (he : sem env fuel w s = some e) (hs : CardSound w)
    (hm : ∃ c, w MODULE = .apduModule c) (hw : CurrentBuffer w) : CurrentBuffer (w.put e.2) := by
  by_cases hn : ∃ a b r, s = .newAPDU a b r
  · obtain ⟨a, b, r, rfl⟩ := hn
    obtain ⟨c, hc⟩ := hm
    simp only [sem, Option.some.injEq] at he
    subst he
    split
    · next ha hb _ =>
      split
      · exact hw
      · next hab =>
        simp only [onArray]
        split
        · next l hl =>
          have hma : MODULE ≠ a := fun h => by rw [h, ha] at hc; cases hc
          have hmb : MODULE ≠ b := fun h => by rw [h, hb] at hc; cases hc
          have hrb : r ≠ b := fun h => by rw [h, hb] at hl; cases hl
          have new : ∀ x buf, buf ≠ [] → CurrentBuffer (w.put [(a, .apdu r b x), (b, .array buf), (MODULE, .apduModule (some a))]) := by
            intro x buf hbuf q hq
            simp only [put, if_true, Obj.apduModule.injEq, Option.some.injEq] at hq
            subst hq
            refine ⟨r, b, x, buf, by simp [put, hab, Ne.symm hma], by simp [put, Ne.symm hmb], hbuf, ?_⟩
            intro a' r' b' x' h'
            simp only [put] at h'
            split at h'
            · cases h'
            · split at h'
              · cases h'
              · split at h'
                · cases h'; exact hrb
                · rintro rfl
                  have := hs.fits a' .raw r' (by rw [h']; simp [holds])
                  rw [hb] at this
                  simp [Slot.fits, kind] at this
          simp only [Card.newAPDU]
          split
          · exact hw
          · split
            · exact hw
            · next buf hbuf =>
              split
              · next x hx => exact new _ _ (init_nonempty hx)
              · exact new _ _ (header_nonempty hbuf)
        · exact hw
    · exact hw
  · have hn' : ∀ a b r, s ≠ .newAPDU a b r := fun a b r h => hn ⟨a, b, r, h⟩
    obtain ⟨c, hc⟩ := hm
    have hM : w.put e.2 MODULE = w MODULE := by
      refine unchanged he (by rw [hc]; simp [kind]) ?_
      rw [hc]
      cases s <;> first
        | (simp [changes, kind]; done)
        | exact absurd rfl (hn' _ _ _)
    intro a ha
    rw [hM] at ha
    obtain ⟨r, b, x, l, h1, h2, h3, h4⟩ := hw a ha
    have old : ∀ a' r' b' x', w.put e.2 a' = .apdu r' b' x' → ∃ y, w a' = .apdu r' b' y := by
      intro a' r' b' x' h'
      rcases put_mem w e.2 a' with hp | ⟨u, hu, rfl, hp⟩
      · rw [hp] at h'; exact ⟨_, h'⟩
      · rw [hp] at h'; exact apdu_same he hn' u hu _ _ _ h'
    have hk : kind (w.put e.2 a) = .apdu := by rw [put_kind he a (by rw [h1]; simp [kind]), h1]; rfl
    obtain ⟨r2, b2, x2, h2'⟩ : ∃ r b x, w.put e.2 a = .apdu r b x := by
      cases ho : w.put e.2 a with
      | apdu r b x => exact ⟨_, _, _, rfl⟩
      | key k => rw [ho] at hk; cases k <;> simp only [kind] at hk <;> (try split at hk) <;> cases hk
      | _ => rw [ho] at hk; cases hk
    obtain ⟨y, hy⟩ := old _ _ _ _ h2'
    rw [h1] at hy
    cases hy
    have hkb : kind (w.put e.2 b) = .array := by rw [put_kind he b (by rw [h2]; simp [kind]), h2]; rfl
    obtain ⟨l', hl'⟩ : ∃ l, w.put e.2 b = .array l := by
      cases ho : w.put e.2 b with
      | array l => exact ⟨_, rfl⟩
      | key k => rw [ho] at hkb; cases k <;> simp only [kind] at hkb <;> (try split at hkb) <;> cases hkb
      | _ => rw [ho] at hkb; cases hkb
    refine ⟨r, b, x2, l', h2', hl', ?_, ?_⟩
    · rcases put_mem w e.2 b with hp | ⟨u, hu, rfl, hp⟩
      · rw [hp, h2] at hl'; cases hl'; exact h3
      · rw [hp] at hl'
        have hpos : 0 < l.length := List.length_pos_iff.2 h3
        have : l.length ≤ l'.length := by
          by_cases hz : Resizes w u.1 s
          · cases s <;> simp only [Resizes] at hz
            case apdu a' op => obtain ⟨b', y, hb'⟩ := hz; exact absurd rfl (h4 _ _ _ _ hb')
            case sendBytesLong a' r' off len => obtain ⟨b', y, hb'⟩ := hz; exact absurd rfl (h4 _ _ _ _ hb')
            case aidGetBytes i d off =>
              simp only [sem, Option.some.injEq, onArray] at he
              subst he
              split at hu
              · next l0 hl0 =>
                split at hu
                · simp only [arrayToInt, List.mem_cons, List.not_mem_nil, or_false] at hu
                  subst hu
                  simp only at h2 hl'
                  rw [h2] at hl0
                  cases hl0
                  cases hl'
                  exact getBytes_grows _ _ _
                · simp [wrong] at hu
              · simp [wrong] at hu
          · exact Nat.le_of_eq (sem_len env fuel w s e he u hu l l' h2 hl' hz).symm
        intro h0; rw [h0, List.length_nil] at this; omega
    · intro a' r' b' x' h'
      obtain ⟨y, hy⟩ := old _ _ _ _ h'
      exact h4 _ _ _ _ hy

theorem module_of {o : Obj} (hk : kind o = .apduModule) : ∃ c, o = .apduModule c := by
  cases o with
  | apduModule c => exact ⟨c, rfl⟩
  | key k => cases k <;> simp only [kind] at hk <;> (try split at hk) <;> cases hk
  | _ => cases hk

theorem module_run {env : CryptoEnv} {fuel : Nat} {prog : List Step} {outs : List (Except Err Card.Out)} {w : Card}
    (h : run env fuel blank prog = some (outs, w)) : ∃ c, w MODULE = .apduModule c :=
  module_of (run_induct (P := fun w => kind (w MODULE) = .apduModule) (fun w s e he hw => by rw [put_kind he MODULE (by rw [hw]; simp)]; exact hw) prog blank outs w h rfl)

theorem current_run {env : CryptoEnv} {fuel : Nat} {prog : List Step} {outs : List (Except Err Card.Out)} {w : Card}
    (h : run env fuel blank prog = some (outs, w)) : CurrentBuffer w := by
  refine (run_induct (P := fun w => CardSound w ∧ kind (w MODULE) = .apduModule ∧ CurrentBuffer w) (fun w s e he hw => ?_) prog blank outs w h ?_).2.2
  · exact ⟨card_sound_step he hw.1, by rw [put_kind he MODULE (by rw [hw.2.1]; simp)]; exact hw.2.1, current_step he hw.1 (module_of hw.2.1) hw.2.2⟩
  · exact ⟨card_sound_blank, rfl, fun a h => by simp [blank] at h⟩

/-! ### The calls -/

theorem is_array {o : Obj} (h : kind o ∈ [Kind.array]) : ∃ l, o = .array l := by
  cases o with
  | array l => exact ⟨l, rfl⟩
  | key k => cases k <;> simp only [kind] at h <;> (try split at h) <;> simp at h
  | _ => simp [kind] at h
theorem is_apdu {o : Obj} (h : kind o ∈ [Kind.apdu]) : ∃ r b x, o = .apdu r b x := by
  cases o with
  | apdu r b x => exact ⟨r, b, x, rfl⟩
  | key k => cases k <;> simp only [kind] at h <;> (try split at h) <;> simp at h
  | _ => simp [kind] at h
theorem is_tag {o : Obj} (h : kind o ∈ [Kind.tag]) : ∃ l, o = .tag l := by
  cases o with
  | tag l => exact ⟨l, rfl⟩
  | key k => cases k <;> simp only [kind] at h <;> (try split at h) <;> simp at h
  | _ => simp [kind] at h
theorem is_tlv {o : Obj} (h : kind o ∈ [Kind.tlv]) : ∃ l, o = .tlv l := by
  cases o with
  | tlv l => exact ⟨l, rfl⟩
  | key k => cases k <;> simp only [kind] at h <;> (try split at h) <;> simp at h
  | _ => simp [kind] at h
theorem is_key {o : Obj} (h : kind o ∈ [Kind.desKey, .rsaPublic, .rsaPrivate]) : ∃ l, o = .key l := by
  cases o with
  | key l => exact ⟨l, rfl⟩
  | _ => simp [kind] at h
theorem is_pair {o : Obj} (h : kind o ∈ [Kind.pair]) : ∃ l, o = .pair l := by
  cases o with
  | pair l => exact ⟨l, rfl⟩
  | key k => cases k <;> simp only [kind] at h <;> (try split at h) <;> simp at h
  | _ => simp [kind] at h
theorem is_des {o : Obj} (h : kind o ∈ [Kind.des]) : ∃ l, o = .des l := by
  cases o with
  | des l => exact ⟨l, rfl⟩
  | key k => cases k <;> simp only [kind] at h <;> (try split at h) <;> simp at h
  | _ => simp [kind] at h
theorem is_rsa {o : Obj} (h : kind o ∈ [Kind.rsa]) : ∃ l, o = .rsa l := by
  cases o with
  | rsa l => exact ⟨l, rfl⟩
  | key k => cases k <;> simp only [kind] at h <;> (try split at h) <;> simp at h
  | _ => simp [kind] at h
theorem is_cipher {o : Obj} (h : kind o ∈ [Kind.des, .rsa]) : (∃ l, o = .des l) ∨ ∃ l, o = .rsa l := by
  cases o with
  | des l => exact .inl ⟨l, rfl⟩
  | rsa l => exact .inr ⟨l, rfl⟩
  | key k => cases k <;> simp only [kind] at h <;> (try split at h) <;> simp at h
  | _ => simp [kind] at h
theorem is_digest {o : Obj} (h : kind o ∈ [Kind.digest]) : ∃ l, o = .digest l := by
  cases o with
  | digest l => exact ⟨l, rfl⟩
  | key k => cases k <;> simp only [kind] at h <;> (try split at h) <;> simp at h
  | _ => simp [kind] at h
theorem is_pin {o : Obj} (h : kind o ∈ [Kind.pin]) : ∃ l, o = .pin l := by
  cases o with
  | pin l => exact ⟨l, rfl⟩
  | key k => cases k <;> simp only [kind] at h <;> (try split at h) <;> simp at h
  | _ => simp [kind] at h
theorem is_big {o : Obj} (h : kind o ∈ [Kind.big]) : ∃ l, o = .big l := by
  cases o with
  | big l => exact ⟨l, rfl⟩
  | key k => cases k <;> simp only [kind] at h <;> (try split at h) <;> simp at h
  | _ => simp [kind] at h
theorem is_aid {o : Obj} (h : kind o ∈ [Kind.aid]) : ∃ l, o = .aid l := by
  cases o with
  | aid l => exact ⟨l, rfl⟩
  | key k => cases k <;> simp only [kind] at h <;> (try split at h) <;> simp at h
  | _ => simp [kind] at h

/-- The lists of an APDU. -/
theorem apdu_lists {w : Card} (hw : CardSound w) {a r b : Nat} {x : APDUObj} (ha : w a = .apdu r b x) : (∃ l, w r = .array l) ∧ ∃ l, w b = .array l := by
  refine ⟨is_array ?_, is_array ?_⟩
  · have := hw.fits a .raw r (by rw [ha]; simp [holds]); simpa [Slot.fits] using this
  · have := hw.fits a .buffer b (by rw [ha]; simp [holds]); simpa [Slot.fits] using this

theorem onAPDU_eq {w : Card} (hw : CardSound w) {a r b : Nat} {x : APDUObj} (ha : w a = .apdu r b x) :
    ∃ raw buf, ∀ f, onAPDU w a f = f r b raw buf x := by
  obtain ⟨⟨l, hl⟩, l', hl'⟩ := apdu_lists hw ha
  exact ⟨l, l', fun f => by simp only [onAPDU, ha, onArray, hl, hl']⟩

theorem make_ok {w : Card} {r : Nat} {o : Obj} (h : w r = .free) : (make w r o).1 = .ok (.ref r) := by simp only [make, h]

theorem makeOr_err {w : Card} {r : Nat} {x : Except Err Obj} {e : Err} (h : w r = .free) (he : (makeOr w r x).1 = .error e) : x = .error e := by
  cases x with
  | error e' => injection he with he; subst he; rfl
  | ok o => simp only [makeOr, make_ok h] at he; cases he

theorem found_err' {w : Card} {k g : Nat} {x : Except Err (Option BERTLV)} {e : Err} (hk : w k = .free) (hg : w g = .free) (hne : k ≠ g)
    (he : (Card.found w k g x).1 = .error e) : x = .error e := by
  cases x with
  | error e' => injection he with he; subst he; rfl
  | ok o =>
    cases o with
    | none => cases he
    | some t =>
      simp only [Card.found, makeTLV] at he
      split at he
      · rw [make_ok hk] at he; cases he
      · simp only [hk, hg, if_neg hne] at he; cases he

theorem onArray_eq {w : Card} {r : Nat} {l : List Int} (h : w r = .array l) (f : List Int → Eff) : onArray w r f = f l := by simp only [onArray, h]

theorem onTLV_eq {w : Card} {k : Nat} {t : TLVRef} (h : w k = .tlv t) (f : TLVRef → BERTLV → Option Eff) :
    onTLV w k f = f t { constructed := t.constructed, tag := t.tag.bind (tagAt w), length := t.length, value := t.value } := by simp only [onTLV, h]

theorem tagAt_eq {w : Card} {g : Nat} {t : BERTag} (h : w g = .tag t) : tagAt w g = some t := by simp only [tagAt, h]

theorem tagArg_eq {w : Card} {g : Option Nat} (h : ∀ x ∈ g.toList, kind (w x) ∈ [Kind.tag]) : ∃ t, tagArg w g = some t := by
  cases g with
  | none => exact ⟨_, rfl⟩
  | some g =>
    obtain ⟨t, ht⟩ := is_tag (h g (by simp))
    exact ⟨some t, by simp only [tagArg, tagAt_eq ht, Option.map_some]⟩

theorem optArray_eq {w : Card} {r : Option Nat} (h : ∀ x ∈ r.toList, kind (w x) ∈ [Kind.array]) : ∃ l, ∀ f, onOptArray w r f = f l := by
  cases r with
  | none => exact ⟨none, fun _ => rfl⟩
  | some r =>
    obtain ⟨l, hl⟩ := is_array (h r (by simp))
    exact ⟨some l, fun f => by simp only [onOptArray, onArray_eq hl]⟩

theorem arrayArg_eq {w : Card} {r : Option Nat} (h : ∀ x ∈ r.toList, kind (w x) ∈ [Kind.array]) : ∃ l, arrayArg w r = some l := by
  cases r with
  | none => exact ⟨none, rfl⟩
  | some r =>
    obtain ⟨l, hl⟩ := is_array (h r (by simp))
    exact ⟨some l, by simp only [arrayArg, hl]⟩

theorem raised_of {α : Type} {r : Except Err α} {e : Err} (h : r = .error e) : raised r = some e := by rw [h]; rfl

theorem getValue_err' (t : BERTLV) (l : List Int) (o : Int) (e : Err) (h : (t.getValue l o).1 = .error e) : e = .arrayIndexOutOfBounds ∨ e = .attributeError := by
  unfold BERTLV.getValue at h
  repeat' split at h
  all_goals first
    | (injection h with h; simp [h.symm]; done)
    | (next h1 => injection h with h; subst h; simp [copy_err _ _ _ _ _ _ (congrArg Prod.fst h1)]; done)
    | cases h

theorem replace_err' (t : BERTLV) (l : List Int) (o n : Int) (e : Err) (h : (t.replaceValue l o n).1 = .error e) : e = .arrayIndexOutOfBounds ∨ e = .attributeError := by
  unfold BERTLV.replaceValue at h
  repeat' split at h
  all_goals first
    | (injection h with h; simp [h.symm]; done)
    | (next h1 => injection h with h; subst h; simp [copy_err _ _ _ _ _ _ (congrArg Prod.fst h1)]; done)
    | cases h

theorem keyArg_good {w : Card} (hw : ∀ r, Good (w r)) (k : Option Nat) :
    ∀ r d, (keyArg w k).1 = .key r → (keyArg w k).2 r = .des d → d.initialized = true → d.key.isSome = true := by
  intro r d h1 h2
  unfold keyArg at h1 h2
  split at h1
  · cases h1
  · next q => 
    split at h1
    · next x hx =>
      simp only [hx] at h2
      subst h2
      have := hw q
      rw [hx] at this
      exact this
    · cases h1

theorem call_err {env : CryptoEnv} {fuel : Nat} {w : Card} {s : Step} {e : Err} {us : List (Nat × Obj)} (hs : CardSound w) (hm : ∃ c, w MODULE = .apduModule c)
    (hg : ∀ r, Good (w r)) (hb : CurrentBuffer w) (hf : Fits w s) (he : sem env fuel w s = some (.error e, us)) : raises s e ∨ libraryRaises env s e := by
  obtain ⟨ho, hd, hp⟩ := hf
  cases s <;> simp only [needs, List.mem_cons, List.not_mem_nil, or_false, forall_eq_or_imp, forall_eq] at ho <;>
    simp only [makes, List.mem_cons, List.not_mem_nil, or_false, forall_eq_or_imp, forall_eq] at hp hd
  case rsaFinal c rnd r off len r' off' =>
    obtain ⟨h1, h2, h3⟩ := ho
    obtain ⟨x, hx⟩ := is_rsa (by simpa using h1)
    obtain ⟨a, ha⟩ := is_array (by simpa using h2)
    obtain ⟨b, hb⟩ := is_array (by simpa using h3)
    simp only [sem, hx, ha, hb, Option.map_eq_some_iff, Prod.mk.injEq] at he
    obtain ⟨y, hy, he, _⟩ := he
    exact rsaFinal_err _ _ _ _ _ _ _ _ _ _ _ y hy (map_error _ _ _ he)
  all_goals (left; simp only [sem, Option.some.injEq] at he)
  case newArray r l => simp only [make, hp, Prod.mk.injEq] at he; cases he.1
  case load r i =>
    obtain ⟨l, hl⟩ := is_array (by simpa using ho)
    simp only [onArray_eq hl, Prod.mk.injEq] at he
    exact get_err _ _ _ (map_error _ _ _ he.1)
  case store r i v =>
    obtain ⟨l, hl⟩ := is_array (by simpa using ho)
    rw [onArray_eq hl] at he
    split at he
    · next h => cases he; exact set_error _ _ _ _ h
    · cases he
  case arrayCopy s so d dOff len =>
    obtain ⟨l, hl⟩ := is_array (by simpa using ho.1)
    obtain ⟨l', hl'⟩ := is_array (by simpa using ho.2)
    rw [onArray_eq hl, onArray_eq hl'] at he
    split at he <;> simp only [arrayTo, Prod.mk.injEq] at he <;> exact copyRef_err _ _ _ _ _ _ _ (map_error _ _ _ he.1)
  case arrayCopyNonAtomic s so d dOff len =>
    obtain ⟨l, hl⟩ := is_array (by simpa using ho.1)
    obtain ⟨l', hl'⟩ := is_array (by simpa using ho.2)
    rw [onArray_eq hl, onArray_eq hl'] at he
    split at he <;> simp only [arrayTo, Prod.mk.injEq] at he <;> exact copyNA_err _ _ _ _ _ _ _ (map_error _ _ _ he.1)
  case arrayCompare s so d dOff len =>
    obtain ⟨l, hl⟩ := is_array (by simpa using ho.1)
    obtain ⟨l', hl'⟩ := is_array (by simpa using ho.2)
    simp only [onArray_eq hl, onArray_eq hl', Prod.mk.injEq] at he
    exact compare_err _ _ _ _ _ _ (map_error _ _ _ he.1)
  case arrayFill r off len v =>
    obtain ⟨l, hl⟩ := is_array (by simpa using ho)
    simp only [onArray_eq hl, arrayTo, Prod.mk.injEq] at he
    exact fill_err _ _ _ _ _ (map_error _ _ _ he.1)
  case getShort r off =>
    obtain ⟨l, hl⟩ := is_array (by simpa using ho)
    simp only [onArray_eq hl, Prod.mk.injEq] at he
    exact getShort_err _ _ _ (map_error _ _ _ he.1)
  case setShort r off v =>
    obtain ⟨l, hl⟩ := is_array (by simpa using ho)
    simp only [onArray_eq hl, arrayTo, Prod.mk.injEq] at he
    exact setShort_err _ _ _ _ (map_error _ _ _ he.1)
  case getInt r off =>
    obtain ⟨l, hl⟩ := is_array (by simpa using ho)
    simp only [onArray_eq hl, Prod.mk.injEq] at he
    exact getInt_err _ _ _ (map_error _ _ _ he.1)
  case setInt r off v v' =>
    obtain ⟨l, hl⟩ := is_array (by simpa using ho)
    simp only [onArray_eq hl, arrayToInt, Prod.mk.injEq] at he
    exact setInt_err _ _ _ _ _ (map_error _ _ _ he.1)
  case availableMemory r off m =>
    obtain ⟨l, hl⟩ := is_array (by simpa using ho)
    simp only [onArray_eq hl, arrayTo, Prod.mk.injEq] at he
    exact memory_err _ _ _ _ (map_error _ _ _ he.1)
  case random rnd r off len =>
    obtain ⟨l, hl⟩ := is_array (by simpa using ho)
    simp only [onArray_eq hl, arrayTo, Prod.mk.injEq] at he
    exact random_err _ _ _ _ _ (map_error _ _ _ he.1)
  case newAPDU a b r =>
    obtain ⟨l, hl⟩ := is_array (by simpa using ho)
    obtain ⟨c, hc⟩ := hm
    have hne : a ≠ b := by simpa using hd
    simp only [hp.1, hp.2, hc, if_neg hne, onArray_eq hl, Card.newAPDU] at he
    split at he
    · cases he; exact .inl rfl
    · next h4 =>
      split at he
      · next h =>
        cases he
        right
        have done : ∀ (x : Res (List Int) Unit) e, (∀ e, x.1 = .error e → e = .indexError) → APDU.done x = .error e → e = .indexError := by
          intro x e hx h
          unfold APDU.done at h
          split at h
          · cases h
          · injection h with h; subst h; exact hx _ rfl
        unfold World.headerBuffer at h
        simp only [bind, Except.bind, pure, Except.pure] at h
        split at h
        · next h1 => injection h with h; subst h; exact done _ _ (fun e => copyRange_err' _ _ _ _ _ _ e) h1
        · split at h
          · split at h
            · next h1 => injection h with h; subst h; exact get_err _ _ _ h1
            · exact done _ _ (fun e => copyRange_err' _ _ _ _ _ _ e) h
          · cases h
      · split at he
        · cases he
        · next h => cases he; exact .inr (init_error_index _ (by omega) _ h).1
  case apdu a op =>
    obtain ⟨r, b, x, ha⟩ := is_apdu (by simpa using ho)
    obtain ⟨raw, buf, h⟩ := onAPDU_eq hs ha
    rw [h] at he
    have hg := hg a
    rw [ha] at hg
    exact apduStep_err a r b raw buf op x (by rintro y rfl; exact hg) e (congrArg Prod.fst he)
  case sendBytesLong a r off len =>
    obtain ⟨r', b, x, ha⟩ := is_apdu (by simpa using ho.1)
    obtain ⟨l, hl⟩ := is_array (by simpa using ho.2)
    obtain ⟨raw, buf, h⟩ := onAPDU_eq hs ha
    rw [onArray_eq hl, h] at he
    have hg := hg a
    rw [ha] at hg
    exact apduStep_err a r' b raw buf (.sendBytesLong l off len) x (by rintro y rfl; exact hg) e (congrArg Prod.fst he)
  case getBuffer a =>
    obtain ⟨r, b, x, ha⟩ := is_apdu (by simpa using ho)
    obtain ⟨raw, buf, h⟩ := onAPDU_eq hs ha
    rw [h] at he; cases he
  case askAPDU a q =>
    obtain ⟨r, b, x, ha⟩ := is_apdu (by simpa using ho)
    obtain ⟨raw, buf, h⟩ := onAPDU_eq hs ha
    rw [h] at he
    simp only [Prod.mk.injEq] at he
    have he := he.1
    have g : ∀ {β : Type} (f : Int → Except Err β), (match get raw 0 with | .error e => .error e | .ok a => f a : Except Err β) = .error e → (∀ a, ∃ v, f a = .ok v) → e = .indexError := by
      intro β f h hf
      split at h
      · next h1 => injection h with h; subst h; exact get_err _ _ _ h1
      · next v _ => obtain ⟨u, hu⟩ := hf v; rw [hu] at h; cases h
    cases q <;> cases x <;> simp only [apduAsk] at he <;> simp only [raises] <;> first
      | (injection he with he; exact he.symm)
      | exact g _ (map_error _ _ _ he) fun _ => ⟨_, rfl⟩
      | exact get_err _ _ _ (map_error _ _ _ he)
      | cases he
  case currentAPDU =>
    split at he <;> cases he
  case currentAPDUBuffer =>
    split at he
    · cases he; rfl
    · next a ha =>
      obtain ⟨c, hc⟩ := hm
      simp only [current, hc] at ha
      subst ha
      obtain ⟨r, b, x, hx⟩ := is_apdu (o := w a) (by have := hs.fits MODULE .current a (by rw [hc]; simp [holds]); simpa [Slot.fits] using this)
      obtain ⟨raw, buf, h⟩ := onAPDU_eq hs hx
      rw [h] at he; cases he
  case claChannel =>
    split at he
    · cases he; rfl
    · next a ha =>
      obtain ⟨c, hc⟩ := hm
      simp only [current, hc] at ha
      subst ha
      obtain ⟨r, b, x, buf, hx, hbuf, hne, _⟩ := hb a hc
      obtain ⟨⟨raw, hraw⟩, _⟩ := apdu_lists hs hx
      simp only [onAPDU, onArray, hx, hraw, hbuf, Prod.mk.injEq] at he
      cases buf with
      | nil => exact absurd rfl hne
      | cons v vs => simp [Py.get, Py.idx] at he; cases he.1
  case newTag g c => simp only [make, hp, Prod.mk.injEq] at he; cases he.1
  case tagGetInstance g r off =>
    obtain ⟨l, hl⟩ := is_array (by simpa using ho)
    rw [onArray_eq hl] at he
    exact tagGet_err _ _ _ (map_error _ _ _ (makeOr_err hp (congrArg Prod.fst he)))
  case tagInitArray g r off =>
    obtain ⟨t, ht⟩ := is_tag (by simpa using ho.1)
    obtain ⟨l, hl⟩ := is_array (by simpa using ho.2)
    simp only [onArray_eq hl, tagAt_eq ht, Prod.mk.injEq] at he
    rcases tagInit_err _ _ _ _ (map_error _ _ _ he.1) with h | h <;> simp [raises, h]
  case tagInitNumber g c n =>
    obtain ⟨t, ht⟩ := is_tag (by simpa using ho)
    simp only [tagAt_eq ht] at he; cases he
  case tagToBytes g r off =>
    obtain ⟨t, ht⟩ := is_tag (by simpa using ho.1)
    obtain ⟨l, hl⟩ := is_array (by simpa using ho.2)
    simp only [onArray_eq hl, tagAt_eq ht, arrayToInt, Prod.mk.injEq] at he
    rcases tagToBytes_err _ _ _ _ (map_error _ _ _ he.1) with h | h <;> simp [raises, h]
  case tagEquals g h =>
    obtain ⟨t, ht⟩ := is_tag (by simpa using ho.1)
    obtain ⟨t', ht'⟩ := is_tag (by simpa using ho.2)
    simp only [tagAt_eq ht, tagAt_eq ht'] at he; cases he
  case askTag g q =>
    obtain ⟨t, ht⟩ := is_tag (by simpa using ho)
    simp only [tagAt_eq ht] at he; cases he
  case askTagStatic r off q =>
    obtain ⟨l, hl⟩ := is_array (by simpa using ho)
    simp only [onArray_eq hl, Prod.mk.injEq] at he
    obtain ⟨h1, h2, h3, h4, _⟩ := C105_tlv_static l off
    cases q
    · exact h4 e (raised_of (map_error _ _ _ he.1))
    · exact h3 e (raised_of (map_error _ _ _ he.1))
    · exact h1 e (raised_of (map_error _ _ _ he.1))
    · exact h2 e (raised_of (map_error _ _ _ he.1))
  case tagToBytesStatic cls c num r off =>
    obtain ⟨l, hl⟩ := is_array (by simpa using ho)
    simp only [onArray_eq hl, arrayToInt, Prod.mk.injEq] at he
    rcases tagToBytes_err _ _ _ _ (map_error _ _ _ he.1) with h | ⟨_, h | h⟩
    · exact h
    · cases h
    · cases h
  case tlvLength k =>
    obtain ⟨t, ht⟩ := is_tlv (by simpa using ho)
    simp only [onTLV_eq ht] at he; cases he
  case lengthStatic r off =>
    obtain ⟨l, hl⟩ := is_array (by simpa using ho)
    simp only [onArray_eq hl, Prod.mk.injEq] at he
    exact lengthStatic_err _ _ _ (map_error _ _ _ he.1)
  case valueOffset r off =>
    obtain ⟨l, hl⟩ := is_array (by simpa using ho)
    simp only [onArray_eq hl, Prod.mk.injEq] at he
    exact (C105_tlv_static l off).2.2.2.2.2.1 e (raised_of (map_error _ _ _ he.1))
  case findStatic r off r' off' =>
    obtain ⟨l, hl⟩ := is_array (by simpa using ho.1)
    obtain ⟨a, ha⟩ := arrayArg_eq (w := w) (r := r') (by intro y hy; simpa using ho.2 (y, [.array]) (by simpa using hy))
    simp only [hl, ha, Option.map_eq_some_iff] at he
    obtain ⟨y, hy, he⟩ := he
    have := map_error _ _ _ (congrArg Prod.fst he)
    subst this
    rcases findStatic_err _ _ _ _ _ _ hy with h | h | h <;> simp [raises, h]
  case findNextStatic r off start r' off' =>
    obtain ⟨l, hl⟩ := is_array (by simpa using ho.1)
    obtain ⟨a, ha⟩ := optArray_eq (w := w) (r := r') (by intro y hy; simpa using ho.2 (y, [.array]) (by simpa using hy))
    simp only [onArray_eq hl, ha, Prod.mk.injEq] at he
    rcases (C105_tlv_static l off).2.2.2.2.2.2.2 start a off' e (raised_of (map_error _ _ _ he.1)) with h | h | h | h <;> simp [raises, h]
  case newTLV k c => simp only [make, hp, Prod.mk.injEq] at he; cases he.1
  case tlvGetInstance k g r off len =>
    obtain ⟨l, hl⟩ := is_array (by simpa using ho)
    rw [onArray_eq hl] at he
    exact tlvGet_err _ _ _ _ (map_error _ _ _ (found_err' hp.1 hp.2 (by simpa using hd) (congrArg Prod.fst he)))
  case tlvInit k g' g r off len =>
    obtain ⟨t, ht⟩ := is_tlv (by simpa using ho.1)
    obtain ⟨u, hu⟩ := is_tag (by simpa using ho.2.1)
    obtain ⟨l, hl⟩ := is_array (by simpa using ho.2.2)
    simp only [onTLV_eq ht, onArray_eq hl, tagAt_eq hu, hp, Option.some.injEq, Prod.mk.injEq] at he
    have := (size_err _ _ (map_error _ _ _ he.1)).2
    simp [BERTLV.initTag] at this
  case tlvInitArray k r off len =>
    obtain ⟨t, ht⟩ := is_tlv (by simpa using ho.1)
    obtain ⟨l, hl⟩ := is_array (by simpa using ho.2)
    simp only [onTLV_eq ht, onArray_eq hl, Option.some.injEq, Prod.mk.injEq] at he
    have h := map_error _ _ _ he.1
    unfold BERTLV.initArray at h
    split at h
    · next h1 => injection h with h; subst h; exact tlvGet_err _ _ _ _ h1
    · next x hx =>
      obtain ⟨g, hg, _⟩ := tlvGet_known _ _ _ _ hx
      have := (size_err _ _ h).2
      rw [hg] at this
      cases this
  case getTag k =>
    obtain ⟨t, ht⟩ := is_tlv (by simpa using ho)
    simp only [onTLV_eq ht] at he; cases he
  case tlvSize k =>
    obtain ⟨t, ht⟩ := is_tlv (by simpa using ho)
    simp only [onTLV_eq ht, Option.some.injEq, Prod.mk.injEq] at he
    exact (size_err _ _ (map_error _ _ _ he.1)).1
  case append k j =>
    obtain ⟨t, ht⟩ := is_tlv (by simpa using ho.1)
    obtain ⟨u, hu⟩ := is_tlv (by simpa using ho.2)
    simp only [onTLV_eq ht, onTLV_eq hu, Option.some.injEq, Prod.mk.injEq] at he
    rcases append_err _ _ _ (map_error _ _ _ he.1) with h | ⟨h, _⟩ | h | h | h <;> simp [raises, h]
  case appendStatic r off r' off' =>
    obtain ⟨l, hl⟩ := is_array (by simpa using ho.1)
    obtain ⟨l', hl'⟩ := is_array (by simpa using ho.2)
    simp only [onArray_eq hl, onArray_eq hl', arrayToInt, Prod.mk.injEq] at he
    rcases appendStatic_err _ _ _ _ _ (map_error _ _ _ he.1) with h | h | h | h <;> simp [raises, h]
  case find k' g' k g =>
    obtain ⟨t, ht⟩ := is_tlv (by simpa using ho.1)
    obtain ⟨x, hx⟩ := tagArg_eq (w := w) (g := g) (by intro y hy; simpa using ho.2 (y, [.tag]) (by simpa using hy))
    simp only [onTLV_eq ht, hx, Option.map_eq_some_iff] at he
    obtain ⟨y, hy, he⟩ := he
    have := found_err' hp.1 hp.2 (by simpa using hd) (congrArg Prod.fst he)
    subst this
    rcases findBound_err _ _ _ _ hy with h | h | h <;> simp [raises, h]
  case findNext k' g' k g j n =>
    obtain ⟨t, ht⟩ := is_tlv (by simpa using ho.1)
    obtain ⟨u, hu⟩ := is_tlv (by simpa using ho.2.1)
    obtain ⟨x, hx⟩ := tagArg_eq (w := w) (g := g) (by intro y hy; simpa using ho.2.2 (y, [.tag]) (by simpa using hy))
    simp only [onTLV_eq ht, onTLV_eq hu, hx, Option.map_eq_some_iff] at he
    obtain ⟨y, hy, he⟩ := he
    have := found_err' hp.1 hp.2 (by simpa using hd) (congrArg Prod.fst he)
    subst this
    rcases findNext_err _ _ _ _ _ _ hy with h | h | h | h <;> simp [raises, h]
  case getValue k r off =>
    obtain ⟨t, ht⟩ := is_tlv (by simpa using ho.1)
    obtain ⟨l, hl⟩ := is_array (by simpa using ho.2)
    simp only [onTLV_eq ht, onArray_eq hl, arrayToInt, Option.some.injEq, Prod.mk.injEq] at he
    exact getValue_err' _ _ _ _ (map_error _ _ _ he.1)
  case replaceValue k r off len =>
    obtain ⟨t, ht⟩ := is_tlv (by simpa using ho.1)
    obtain ⟨l, hl⟩ := is_array (by simpa using ho.2)
    simp only [onTLV_eq ht, onArray_eq hl, Option.some.injEq, Prod.mk.injEq] at he
    exact replace_err' _ _ _ _ _ (map_error _ _ _ he.1)
  case tlvToBytes k r off =>
    obtain ⟨t, ht⟩ := is_tlv (by simpa using ho.1)
    obtain ⟨l, hl⟩ := is_array (by simpa using ho.2)
    simp only [onTLV_eq ht, onArray_eq hl, arrayToInt, Option.some.injEq, Prod.mk.injEq] at he
    rcases tlvToBytes_err _ _ _ _ (map_error _ _ _ he.1) with ⟨h, _⟩ | ⟨h, _⟩ | h | h | h <;> simp [raises, h]
  case buildKey k args =>
    split at he
    · next h =>
      simp only [Prod.mk.injEq, Except.error.injEq] at he
      rw [← he.1]
      unfold Model.buildKey at h
      repeat' split at h
      all_goals first
        | (injection h with h; simp [raises, h.symm]; done)
        | cases h
    · cases he
    · simp only [make, hp, Prod.mk.injEq] at he; cases he.1
  case setKey k r off =>
    obtain ⟨x, hx⟩ := is_key (by simpa using ho.1)
    obtain ⟨l, hl⟩ := is_array (by simpa using ho.2)
    cases x <;> simp only [onArray_eq hl, hx] at he <;> cases he
    rfl
  case getKey k r off =>
    obtain ⟨x, hx⟩ := is_key (by simpa using ho.1)
    obtain ⟨l, hl⟩ := is_array (by simpa using ho.2)
    cases x <;> simp only [onArray_eq hl, hx, arrayTo, Prod.mk.injEq] at he
    · cases he.1; simp [raises]
    · rcases getKey_err _ _ _ _ (map_error _ _ _ he.1) with h | h <;> simp [raises, h]
  case setRSA k x r off len =>
    obtain ⟨y, hy⟩ := is_key (by simpa using ho.1)
    obtain ⟨l, hl⟩ := is_array (by simpa using ho.2)
    cases y <;> simp only [onArray_eq hl, hy, Prod.mk.injEq] at he
    · cases x with
      | true => exact .inl (afterSet_err _ _ _ (map_error _ _ _ he.1))
      | false => rcases setModulus_err _ _ _ _ _ _ (map_error _ _ _ he.1) with h | h | h <;> simp [raises, h]
    · cases he.1; cases x <;> simp [raises]
  case setTheKey k t =>
    obtain ⟨y, hy⟩ := is_key (by simpa using ho)
    cases y <;> simp only [hy, Prod.mk.injEq, setTheKey_ok] at he
    · cases he.1
    · cases he.1; rfl
  case getRSA k x r off =>
    obtain ⟨y, hy⟩ := is_key (by simpa using ho.1)
    obtain ⟨l, hl⟩ := is_array (by simpa using ho.2)
    have hg := hg k
    rw [hy] at hg
    cases y <;> simp only [onArray_eq hl, hy, Prod.mk.injEq, arrayToInt] at he
    · have : e = .crypto 2 ∨ e = .arrayIndexOutOfBounds := by
        cases x with
        | true => exact rsaGet_err _ _ _ _ _ (fun h => (hg h).1) (map_error _ _ _ he.1)
        | false => exact rsaGet_err _ _ _ _ _ (fun h => (hg h).2) (map_error _ _ _ he.1)
      rcases this with h | h <;> simp [raises, h]
    · cases he.1; simp [raises]
  case clearKey k =>
    obtain ⟨y, hy⟩ := is_key (by simpa using ho)
    simp only [hy] at he; cases he
  case askKey k q =>
    obtain ⟨y, hy⟩ := is_key (by simpa using ho)
    simp only [hy] at he; cases he
  case newPair p i j alg len =>
    simp only [List.nodup_cons, List.mem_cons, List.not_mem_nil, or_false, not_or] at hd
    simp only [hp.1, hp.2.1, hp.2.2, hd.1.1, hd.1.2, hd.2.1, or_self, if_false] at he
    split at he
    · cases he
    · cases he; rfl
  case pairOf p i j =>
    obtain ⟨x, hx⟩ := is_key (by simpa using ho.1)
    obtain ⟨y, hy⟩ := is_key (by simpa using ho.2)
    simp only [hx, hy] at he
    split at he
    · next h =>
      simp only [Prod.mk.injEq, Except.error.injEq] at he
      rw [← he.1]
      unfold KeyPair.ofKeys at h
      repeat' split at h
      all_goals first
        | (injection h with h; exact h.symm)
        | cases h
    · simp only [make, hp, Prod.mk.injEq] at he; cases he.1
  case getPublic p =>
    obtain ⟨y, hy⟩ := is_pair (by simpa using ho)
    simp only [hy] at he; cases he
  case getPrivate p =>
    obtain ⟨y, hy⟩ := is_pair (by simpa using ho)
    simp only [hy] at he; cases he
  case genKeyPair p i j t =>
    obtain ⟨q, hq⟩ := is_pair (by simpa using ho)
    obtain ⟨x, hx⟩ := is_key (o := w q.publicKey) (by have := hs.fits p .publicKey q.publicKey (by rw [hq]; simp [holds]); simp [Slot.fits] at this; simp [this])
    obtain ⟨y, hy⟩ := is_key (o := w q.privateKey) (by have := hs.fits p .privateKey q.privateKey (by rw [hq]; simp [holds]); simp [Slot.fits] at this; simp [this])
    have hne : i ≠ j := by simpa using hd
    simp only [hq, hp.1, hp.2, hx, hy, if_neg hne, genPair] at he
    repeat' split at he
    all_goals first
      | (cases he; simp [raises, ILLEGAL_VALUE, NO_SUCH_ALGORITHM]; done)
      | cases he
  case getCipher c args =>
    split at he
    · next h => cases he; exact cipherGet_err _ _ h
    · simp only [make, hp, Prod.mk.injEq] at he; cases he.1
    · simp only [make, hp, Prod.mk.injEq] at he; cases he.1
  case desInit c k mode r off len =>
    obtain ⟨x, hx⟩ := is_des (by simpa using ho.1)
    obtain ⟨l, hl⟩ := is_array (by simpa using ho.2)
    simp only [onArray_eq hl, hx, Prod.mk.injEq] at he
    rcases desInit_err _ _ _ _ _ _ _ _ (keyArg_good hg k) (map_error _ _ _ he.1) with h | h | ⟨h, _⟩ | h <;> simp [raises, h]
  case desInitDefault c k mode =>
    obtain ⟨x, hx⟩ := is_des (by simpa using ho)
    simp only [hx, Prod.mk.injEq] at he
    rcases desInit_err _ _ _ _ _ _ _ _ (keyArg_good hg k) (map_error _ _ _ he.1) with h | h | ⟨_, h⟩ | h
    · simp [raises, h]
    · simp [raises, h]
    · cases h
    · simp [raises, h]
  case desFinal c r off len r' off' =>
    obtain ⟨x, hx⟩ := is_des (by simpa using ho.1)
    obtain ⟨l, hl⟩ := is_array (by simpa using ho.2.1)
    obtain ⟨l', hl'⟩ := is_array (by simpa using ho.2.2)
    simp only [onArray_eq hl, onArray_eq hl', hx, Prod.mk.injEq] at he
    have hg := hg c
    rw [hx] at hg
    exact desFinal_err _ _ _ _ _ _ _ hg (map_error _ _ _ he.1)
  case rsaInit c k mode =>
    obtain ⟨x, hx⟩ := is_rsa (by simpa using ho)
    simp only [hx, Prod.mk.injEq] at he
    exact rsaInit_err _ _ _ _ _ (map_error _ _ _ he.1)
  case cipherUpdate c =>
    rcases is_cipher (o := w c) (by simpa using ho) with ⟨x, hx⟩ | ⟨x, hx⟩ <;> simp only [hx, Prod.mk.injEq] at he <;> have he := map_error _ _ _ he.1
    · unfold DESCipher.update at he
      split at he
      · injection he with he; exact he.symm
      · cases he
    · unfold RSACipher.update at he
      split at he
      · injection he with he; exact he.symm
      · cases he
  case getDigest d alg =>
    have h := map_error _ _ _ (makeOr_err hp (congrArg Prod.fst he))
    unfold MessageDigest.getInstance at h
    split at h
    · cases h
    · injection h with h; exact h.symm
  case digestUpdate d r off len =>
    obtain ⟨x, hx⟩ := is_digest (by simpa using ho.1)
    obtain ⟨l, hl⟩ := is_array (by simpa using ho.2)
    simp only [onArray_eq hl, hx, Prod.mk.injEq] at he
    exact update_err _ _ _ _ _ (map_error _ _ _ he.1)
  case digestFinal d r off len r' off' =>
    obtain ⟨x, hx⟩ := is_digest (by simpa using ho.1)
    obtain ⟨l, hl⟩ := is_array (by simpa using ho.2.1)
    obtain ⟨l', hl'⟩ := is_array (by simpa using ho.2.2)
    simp only [onArray_eq hl, onArray_eq hl', hx, Prod.mk.injEq] at he
    exact final_err _ _ _ _ _ _ _ _ (map_error _ _ _ he.1)
  case digestReset d =>
    obtain ⟨x, hx⟩ := is_digest (by simpa using ho)
    simp only [hx] at he; cases he
  case newPIN i limit size => simp only [make, hp, Prod.mk.injEq] at he; cases he.1
  case pinCheck i arg off len =>
    obtain ⟨x, hx⟩ := is_pin (by simpa using ho.1)
    obtain ⟨a, ha⟩ : ∃ a, ∀ f, onPinArg w arg f = f a := by
      cases arg with
      | inl cs => exact ⟨_, fun _ => rfl⟩
      | inr r =>
        obtain ⟨l, hl⟩ := is_array (by simpa using ho.2)
        exact ⟨.arr l, fun f => by simp only [onPinArg, onArray_eq hl]⟩
    simp only [ha, onPIN, hx, OwnerPIN.step, pinOut, Prod.mk.injEq] at he
    exact check_err _ _ _ _ _ (map_error _ _ _ he.1)
  case pinUpdate i arg off len =>
    obtain ⟨x, hx⟩ := is_pin (by simpa using ho.1)
    obtain ⟨a, ha⟩ : ∃ a, ∀ f, onPinArg w arg f = f a := by
      cases arg with
      | inl cs => exact ⟨_, fun _ => rfl⟩
      | inr r =>
        obtain ⟨l, hl⟩ := is_array (by simpa using ho.2)
        exact ⟨.arr l, fun f => by simp only [onPinArg, onArray_eq hl]⟩
    simp only [ha, onPIN, hx, OwnerPIN.step, pinOut, Prod.mk.injEq] at he
    exact pinUpdate_err _ _ _ _ _ (map_error _ _ _ he.1)
  case pinReset i =>
    obtain ⟨x, hx⟩ := is_pin (by simpa using ho)
    simp only [onPIN, hx, OwnerPIN.step, pinOut] at he; cases he
  case pinResetAndUnblock i =>
    obtain ⟨x, hx⟩ := is_pin (by simpa using ho)
    simp only [onPIN, hx, OwnerPIN.step, pinOut] at he; cases he
  case pinSetValidated i v =>
    obtain ⟨x, hx⟩ := is_pin (by simpa using ho)
    simp only [onPIN, hx, OwnerPIN.step, pinOut] at he; cases he
  case pinValidated i =>
    obtain ⟨x, hx⟩ := is_pin (by simpa using ho)
    simp only [hx] at he; cases he
  case pinTries i =>
    obtain ⟨x, hx⟩ := is_pin (by simpa using ho)
    simp only [hx] at he; cases he
  case newBig b m =>
    have h := map_error _ _ _ (makeOr_err hp (congrArg Prod.fst he))
    unfold BigNumber.new at h
    repeat' split at h
    all_goals first
      | (injection h with h; exact h.symm)
      | cases h
  case bigInit b r off len fmt =>
    obtain ⟨x, hx⟩ := is_big (by simpa using ho.1)
    obtain ⟨a, ha⟩ := optArray_eq (w := w) (r := r) (by intro y hy; simpa using ho.2 (y, [.array]) (by simpa using hy))
    simp only [ha, hx, Prod.mk.injEq] at he
    exact bigInit_err _ _ _ _ _ _ (map_error _ _ _ he.1)
  case bigOp op b r off len fmt =>
    obtain ⟨x, hx⟩ := is_big (by simpa using ho.1)
    obtain ⟨a, ha⟩ := optArray_eq (w := w) (r := r) (by intro y hy; simpa using ho.2 (y, [.array]) (by simpa using hy))
    simp only [ha, hx, Prod.mk.injEq] at he
    exact bigOp_err _ _ _ _ _ _ _ (map_error _ _ _ he.1)
  case bigCompare b c =>
    obtain ⟨x, hx⟩ := is_big (by simpa using ho.1)
    obtain ⟨y, hy⟩ := is_big (by simpa using ho.2)
    simp only [hx, hy, Prod.mk.injEq] at he
    exact compareTo_err _ _ _ (map_error _ _ _ he.1)
  case bigCompareArray b r off len fmt =>
    obtain ⟨x, hx⟩ := is_big (by simpa using ho.1)
    obtain ⟨a, ha⟩ := optArray_eq (w := w) (r := r) (by intro y hy; simpa using ho.2 (y, [.array]) (by simpa using hy))
    simp only [ha, hx, Prod.mk.injEq] at he
    exact compareArr_err _ _ _ _ _ _ (map_error _ _ _ he.1)
  case bigToBytes b r off len fmt =>
    obtain ⟨x, hx⟩ := is_big (by simpa using ho.1)
    obtain ⟨l, hl⟩ := is_array (by simpa using ho.2)
    simp only [onArray_eq hl, hx, arrayTo, Prod.mk.injEq] at he
    exact bigToBytes_err _ _ _ _ _ _ (map_error _ _ _ he.1)
  case newAID a r off len =>
    obtain ⟨l, hl⟩ := is_array (by simpa using ho)
    rw [onArray_eq hl] at he
    have h := map_error _ _ _ (makeOr_err hp (congrArg Prod.fst he))
    unfold AID.mk' at h
    split at h
    · injection h with h; exact .inl h.symm
    · split at h
      · injection h with h; exact .inr h.symm
      · cases h
  case aidEquals a r off len =>
    obtain ⟨x, hx⟩ := is_aid (by simpa using ho.1)
    obtain ⟨l, hl⟩ := is_array (by simpa using ho.2)
    simp only [onArray_eq hl, hx, Prod.mk.injEq] at he
    have h := map_error _ _ _ he.1
    unfold AID.equals at h
    split at h
    · injection h with h; exact h.symm
    · cases h
  case aidPartialEquals a r off len =>
    obtain ⟨x, hx⟩ := is_aid (by simpa using ho.1)
    obtain ⟨l, hl⟩ := is_array (by simpa using ho.2)
    simp only [onArray_eq hl, hx, Prod.mk.injEq] at he
    have h := map_error _ _ _ he.1
    unfold AID.partialEquals at h
    repeat' split at h
    all_goals first
      | (injection h with h; exact h.symm)
      | cases h
  case aidGetBytes a r off =>
    obtain ⟨x, hx⟩ := is_aid (by simpa using ho.1)
    obtain ⟨l, hl⟩ := is_array (by simpa using ho.2)
    simp only [onArray_eq hl, hx, arrayToInt, Prod.mk.injEq] at he
    have h := map_error _ _ _ he.1
    unfold AID.getBytes at h
    split at h
    · injection h with h; exact h.symm
    · cases h
  case aidGetPartialBytes a o r off len =>
    obtain ⟨x, hx⟩ := is_aid (by simpa using ho.1)
    obtain ⟨l, hl⟩ := is_array (by simpa using ho.2)
    simp only [onArray_eq hl, hx, arrayToInt, Prod.mk.injEq] at he
    have h := map_error _ _ _ he.1
    unfold AID.getPartialBytes at h
    generalize (if len = 0 then (x.aid.length : Int) else len) = n at h
    simp only at h
    repeat' split at h
    all_goals (injection h with h; simp [raises, h.symm])
  case aidRIDEquals a b =>
    obtain ⟨x, hx⟩ := is_aid (by simpa using ho.1)
    obtain ⟨y, hy⟩ := is_aid (by simpa using ho.2)
    simp only [hx, hy] at he; cases he
  case aidEq a b =>
    obtain ⟨x, hx⟩ := is_aid (by simpa using ho.1)
    obtain ⟨y, hy⟩ := is_aid (by simpa using ho.2)
    simp only [hx, hy] at he; cases he
end CErr

open CErr in
/-- **C122** (no other exception). On the card any program leaves, a call on objects of the right kinds, with any other arguments, raises no exception
outside the table (or what the RSA library raises). -/
theorem C122_only {env : CryptoEnv} {fuel : Nat} {prog : List Step} {outs : List (Except Err Card.Out)} {w w' : Card} {s : Step} {e : Err}
    (h : run env fuel blank prog = some (outs, w)) (hf : Fits w s) (he : step env fuel w s = some (.error e, w')) : raises s e ∨ libraryRaises env s e := by
  simp only [step, Option.map_eq_some_iff, Prod.mk.injEq] at he
  obtain ⟨⟨o, us⟩, hx, rfl, _⟩ := he
  exact call_err (card_sound_run h) (module_run h) (good_run h) (current_run h) hf hx
end Verif.Props
