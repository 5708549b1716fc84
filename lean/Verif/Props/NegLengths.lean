import Verif.Props.CipherHist
import Verif.Props.OffsetsWrap
import Verif.Props.AIDNeg
import Verif.Props.PIN
import Verif.Props.APDUSend
import Verif.Props.TLV
import Verif.Lemmas.Pin
import Verif.Lemmas.DESModes
/-! C102: negative length arguments. -/
namespace Verif.Props
open Verif.Py Verif.Model Verif.Spec

/-- Specification: the list without its first `a` and its last `b` cells. -/
def inner (l : List Int) (a b : Nat) : List Int := (l.drop a).take (l.length - a - b)

example : inner [1, 2, 3, 4, 5, 6] 1 2 = [2, 3, 4] := by decide

/-- Specification: what a range of length `-k` at offset `o` stands for: nothing, unless it would end before the start of the
list; then the end is counted from the end of the list. -/
def negRange (l : List Int) (o k : Nat) : List Int := if o < k then inner l o (k - o) else []

theorem slice_negRange (l : List Int) (o k : Nat) (hk : 0 < k) : slice l (o : Int) ((o : Int) + -(k : Int)) = negRange l o k := by
  unfold slice negRange inner
  have e : bound l.length (o : Int) = min o l.length := bound_natCast _ _
  rw [e]
  by_cases h : o < k
  · rw [if_pos h]
    have e2 : bound l.length ((o : Int) + -(k : Int)) = l.length - (k - o) := by
      unfold bound
      rw [if_neg (by omega)]
      omega
    rw [e2]
    by_cases ho : o ≤ l.length
    · rw [Nat.min_eq_left ho]; congr 1; omega
    · rw [Nat.min_eq_right (by omega), List.drop_of_length_le (Nat.le_refl _), List.drop_of_length_le (by omega)]; simp
  · rw [if_neg h]
    have e2 : bound l.length ((o : Int) + -(k : Int)) = min (o - k) l.length := by
      unfold bound
      rw [if_pos (by omega)]
      omega
    rw [e2]
    apply List.eq_nil_of_length_eq_zero
    simp only [List.length_take, List.length_drop]
    omega

theorem inner_append (pre x post : List Int) : inner (pre ++ x ++ post) pre.length post.length = x := by
  unfold inner
  rw [List.append_assoc, List.drop_left]
  have : (pre ++ (x ++ post)).length - pre.length - post.length = x.length := by simp
  rw [this, List.take_left]

/-! ### AIDs -/

/-- C102. A negative length is refused by the constructor of an AID but not by `equals`, which then compares the AID with the
array without its first `offset` cells and without as many cells at the end as the length reaches below zero. -/
theorem C102_aid_equals (a : AID) (l : List Int) (o k : Nat) (hk : 0 < k) :
    AID.mk' l o (-(k : Int)) = .error .valueError ∧
    (l.length + k < o → a.equals l o (-(k : Int)) = .error .arrayIndexOutOfBounds) ∧
    (o ≤ l.length + k → ∃ b, a.equals l o (-(k : Int)) = .ok b ∧ (b = true ↔ a.aid = negRange l o k)) := by
  refine ⟨?_, ?_, ?_⟩
  · unfold AID.mk'; rw [if_pos (by omega)]
  · intro h; unfold AID.equals; rw [if_pos (by omega)]
  · intro h
    unfold AID.equals
    rw [if_neg (by omega), slice_negRange l o k hk]
    exact ⟨_, rfl, by simp⟩

/-- C102. So an AID anywhere in an array is found there with a negative length, whatever stands around it. -/
theorem C102_aid_found (a : AID) (pre post : List Int) (h : 0 < post.length) :
    a.equals (pre ++ a.aid ++ post) pre.length (-((pre.length + post.length : Nat) : Int)) = .ok true := by
  obtain ⟨b, e, hb⟩ := (C102_aid_equals a (pre ++ a.aid ++ post) pre.length (pre.length + post.length) (by omega)).2.2 (by simp; omega)
  rw [e]
  congr 1
  apply hb.2
  unfold negRange
  rw [if_pos (by omega), show pre.length + post.length - pre.length = post.length by omega, inner_append]

/-- C102. `partialEquals` with length `-k` compares the AID without its last `k` bytes with the same range of the array; for
`k` not below the length of the AID that is the empty list. -/
theorem C102_aid_partial_equals (a : AID) (l : List Int) (o k : Nat) (hk : 0 < k) :
    (l.length + k < o → a.partialEquals l o (-(k : Int)) = .error .arrayIndexOutOfBounds) ∧
    (o ≤ l.length + k → ∃ b, a.partialEquals l o (-(k : Int)) = .ok b ∧ (b = true ↔ inner a.aid 0 k = negRange l o k)) := by
  have e : sliceTo a.aid (-(k : Int)) = inner a.aid 0 k := by
    rw [PyDes.sliceTo_neg _ _ hk]; simp [inner]
  constructor
  · intro h; unfold AID.partialEquals; rw [if_neg (by omega), if_pos (by omega)]
  · intro h
    unfold AID.partialEquals
    rw [if_neg (by omega), if_neg (by omega), slice_negRange l o k hk, e]
    exact ⟨_, rfl, by simp⟩

example : (⟨[1, 2, 3, 4, 5]⟩ : AID).equals [9, 1, 2, 3, 4, 5, 8, 7] 1 (-3) = .ok true ∧
    (⟨[1, 2, 3, 4, 5]⟩ : AID).partialEquals [1, 2, 3, 4, 77] 0 (-1) = .ok true ∧
    (⟨[1, 2, 3, 4, 5]⟩ : AID).partialEquals [] 0 (-5) = .ok true := by decide

/-! ### PINs -/

theorem zeroLoop_neg (buf : List Int) (k : Nat) (h : k ≤ buf.length) :
    OwnerPIN.zeroLoop buf (-(k : Int)) (buf.length + k) = (.ok (), List.replicate buf.length 0) := by
  have key : ∀ (j : Nat) (b : List Int), j ≤ b.length → 
      OwnerPIN.zeroLoop b (-(j : Int)) (b.length + j) = (.ok (), List.replicate b.length 0) := by
    intro j
    induction j with
    | zero =>
      intro b _
      have := OwnerPIN.zeroLoop_ok b 0 b.length (by omega)
      simp only [Nat.add_zero]
      rw [show (-((0 : Nat) : Int)) = ((0 : Nat) : Int) by omega, this]
      simp [splice]
    | succ j ih =>
      intro b hb
      rw [show b.length + (j + 1) = (b.length + j) + 1 by omega]
      unfold OwnerPIN.zeroLoop
      have : Verif.Py.set b (-((j + 1 : Nat) : Int)) 0 = .ok (b.set (b.length - (j + 1)) 0) := OwnerPIN.set_neg b (j + 1) 0 (by omega) hb
      rw [this]
      simp only
      rw [show (-((j + 1 : Nat) : Int) + 1) = -(j : Int) by push_cast; omega]
      have := ih (b.set (b.length - (j + 1)) 0) (by simp; omega)
      simpa using this
  exact key k buf h

theorem zeroLoop_neg_err (buf : List Int) (k n : Nat) (h : buf.length < k) :
    OwnerPIN.zeroLoop buf (-(k : Int)) (n + 1) = (.error .indexError, buf) := by
  unfold OwnerPIN.zeroLoop Verif.Py.set idx
  rw [if_neg (by omega), if_neg (by omega)]

/-- Specification: the number of cells a PIN argument would put in before the rest is cleared. -/
def given (a : PinArg) (off k : Nat) : Nat :=
  match a with
  | .str codes => (negRange codes off k).length
  | .arr _ => 0

theorem fill_neg (buf : List Int) (a : PinArg) (off k m : Nat) (hm : buf.length = m) (hk : 0 < k) :
    (k ≤ m → given a off k ≤ m → OwnerPIN.fill buf a off (-(k : Int)) m = (.ok (), List.replicate m 0)) ∧
    (m < k ∨ m < given a off k → (OwnerPIN.fill buf a off (-(k : Int)) m).1 = .error .indexError) := by
  have e1 : rangeLen ((m : Int) - -(k : Int)) = m + k := by unfold rangeLen; omega
  have e2 : rangeLen (-(k : Int)) = 0 := by unfold rangeLen; omega
  cases a with
  | arr bytes =>
    unfold OwnerPIN.fill
    simp only [e2, OwnerPIN.arrLoop, e1, given]
    constructor
    · intro h _; rw [← hm]; exact zeroLoop_neg buf k (by omega)
    · intro h
      have h : m < k := by omega
      rw [show m + k = (m + k - 1) + 1 by omega, zeroLoop_neg_err buf k _ (by omega)]
  | str codes =>
    unfold OwnerPIN.fill
    simp only [slice_negRange codes off k hk, e1, given]
    generalize negRange codes off k = cs
    constructor
    · intro h hc
      rw [OwnerPIN.strLoop_ok buf 0 cs (by omega)]
      simp only
      have hl : (splice buf 0 cs).length = m := by simp [splice]; omega
      rw [show m + k = (splice buf 0 cs).length + k by omega, zeroLoop_neg _ k (by omega), hl]
    · intro h
      by_cases hc : cs.length ≤ m
      · rw [OwnerPIN.strLoop_ok buf 0 cs (by omega)]
        simp only
        have hl : (splice buf 0 cs).length = m := by simp [splice]; omega
        have h : m < k := by omega
        rw [show m + k = (m + k - 1) + 1 by omega, zeroLoop_neg_err _ k _ (by omega)]
      · have := OwnerPIN.strLoop_err buf 0 cs (by omega) (by omega)
        cases hs : OwnerPIN.strLoop buf 0 cs with
        | mk r b =>
          rw [hs] at this
          simp only at this
          subst this
          rfl

/-- C102. `update` with a negative length not below `-maxPINSize` is accepted: every byte of the PIN becomes zero, the PIN counts as
validated and the try counter is reset, whatever PIN was given (an array, or a string of which no more than `maxPINSize` characters
are taken). -/
theorem C102_pin_update (p : OwnerPIN) (m : Nat) (hm : p.maxpinsize = m) (hl : p.pin.length = m) (a : PinArg) (off k : Nat) (hk : 0 < k)
    (ho : off ≤ a.length + k) :
    (k ≤ m → given a off k ≤ m →
      p.update a off (-(k : Int)) = (.ok (), { p with pin := List.replicate m 0, validated := true, triesremaining := p.trylimit })) ∧
    (m < k ∨ m < given a off k → (p.update a off (-(k : Int))).1 = .error .indexError ∧
      (p.update a off (-(k : Int))).2.validated = p.validated ∧ (p.update a off (-(k : Int))).2.triesremaining = p.triesremaining) := by
  obtain ⟨f1, f2⟩ := fill_neg p.pin a off k m hl hk
  unfold OwnerPIN.update
  rw [if_neg (by omega), if_neg (by omega), hm]
  constructor
  · intro h1 h2
    rw [f1 h1 h2]
  · intro h
    have := f2 h
    cases hs : OwnerPIN.fill p.pin a off (-(k : Int)) m with
    | mk r b =>
      rw [hs] at this
      simp only at this
      subst this
      exact ⟨rfl, rfl, rfl⟩

/-- C102. After such an `update` the empty PIN is accepted. -/
theorem C102_pin_then_empty (p : OwnerPIN) (m : Nat) (hm : p.maxpinsize = m) (hl : p.pin.length = m) (ht : 0 < p.trylimit) (a : PinArg)
    (off k : Nat) (hk : 0 < k) (ho : off ≤ a.length + k) (hkm : k ≤ m) (hg : given a off k ≤ m) (bytes : List Int) (off' : Nat) (ho' : off' ≤ bytes.length) :
    ((p.update a off (-(k : Int))).2.check (.arr bytes) off' 0).1 = .ok true := by
  rw [(C102_pin_update p m hm hl a off k hk ho).1 hkm hg]
  unfold OwnerPIN.check
  simp only [PinArg.length]
  rw [if_neg (by omega), if_neg (by omega)]
  unfold OwnerPIN.fill
  have e : rangeLen (0 : Int) = 0 := rfl
  simp only [e, OwnerPIN.arrLoop, hm]
  have h1 := OwnerPIN.zeroLoop_ok (List.replicate m (0 : Int)) 0 m (by simp)
  have e2 : rangeLen ((m : Int) - 0) = m := by unfold rangeLen; omega
  have h2 : OwnerPIN.zeroLoop (fresh (m : Int) 0) 0 (rangeLen ((m : Int) - 0)) = (.ok (), List.replicate m 0) := by
    rw [e2, fresh_natCast]
    refine Eq.trans h1 ?_
    simp [splice]
  rw [h2]
  simp

/-- C102. `check` with a negative length not below `-maxPINSize` compares with the PIN of zero bytes, whatever is given; with a length
below that it raises IndexError and costs no try. -/
theorem C102_pin_check (p : OwnerPIN) (m : Nat) (hm : p.maxpinsize = m) (ht : 0 < p.triesremaining) (a : PinArg) (off k : Nat) (hk : 0 < k) :
    (a.length < off → p.check a off (-(k : Int)) =
      (.error .arrayIndexOutOfBounds, { p with validated := false, triesremaining := p.triesremaining - 1 })) ∧
    (off ≤ a.length → k ≤ m → given a off k ≤ m → p.check a off (-(k : Int)) =
      if p.pin = List.replicate m 0 then (.ok true, { p with validated := true, triesremaining := p.trylimit })
      else (.ok false, { p with validated := false, triesremaining := p.triesremaining - 1 })) ∧
    (off ≤ a.length → m < k ∨ m < given a off k → p.check a off (-(k : Int)) = (.error .indexError, { p with validated := false })) := by
  obtain ⟨f1, f2⟩ := fill_neg (List.replicate m 0) a off k m (by simp) hk
  unfold OwnerPIN.check
  simp only
  rw [if_neg (by omega)]
  refine ⟨?_, ?_, ?_⟩
  · intro h; rw [if_pos (by omega)]
  · intro h h1 h2
    rw [if_neg (by omega), hm, fresh_natCast, f1 h1 h2]
    simp only
    by_cases hp : p.pin = List.replicate m 0
    · rw [if_neg (by simpa using hp), if_pos hp]
    · rw [if_pos hp, if_neg hp]
  · intro h h1
    rw [if_neg (by omega), hm, fresh_natCast]
    have := f2 h1
    cases hs : OwnerPIN.fill (List.replicate m 0) a off (-(k : Int)) m with
    | mk r b =>
      rw [hs] at this
      simp only at this
      subst this
      rfl

example : let p := ((OwnerPIN.init 3 4).update (.str [49, 50, 51, 52]) 0 4).2
    (p.update (.arr [9, 9, 9]) 0 (-2)).1 = .ok () ∧ ((p.update (.arr [9, 9, 9]) 0 (-2)).2.check (.arr []) 0 0).1 = .ok true ∧
    (p.check (.arr [9, 9]) 0 (-5)).1 = .error .indexError ∧ (p.check (.arr [9, 9]) 0 (-5)).2.triesremaining = 3 := by decide

/-! ### Message digests, random data, big numbers, ciphers -/

theorem rangeLen_neg (k : Nat) : rangeLen (-(k : Int)) = 0 := by unfold rangeLen; omega

/-- C102. A digest takes a negative length as no data: `update` changes nothing, `doFinal` gives the digest of what was there before. -/
theorem C102_digest (H : HashLib) (d : MessageDigest) (b : List Int) (o : Int) (k : Nat) (out : List Int) (oo : Int) :
    d.update b o (-(k : Int)) = (.ok (), d) ∧
    d.doFinal H b o (-(k : Int)) out oo = d.doFinal H [] 0 0 out oo := by
  have h : ∀ b o, d.update b o (-(k : Int)) = (.ok (), d) := by
    intro b o
    unfold MessageDigest.update
    rw [rangeLen_neg]
    simp [MessageDigest.readLoop, arrayToBinary]
  have h0 : d.update [] 0 0 = (.ok (), d) := by
    unfold MessageDigest.update
    simp [MessageDigest.readLoop, arrayToBinary, rangeLen]
  refine ⟨h b o, ?_⟩
  unfold MessageDigest.doFinal
  rw [h b o, h0]

/-- C102. `generateData` refuses length zero but not a negative length, which leaves the buffer alone. -/
theorem C102_random (rnd : Nat → Nat) (b : List Int) (o : Int) (k : Nat) (hk : 0 < k) :
    RandomData.generateData rnd b o (-(k : Int)) = (.ok (), b) ∧ (RandomData.generateData rnd b o 0).1 = .error (.crypto 1) := by
  constructor
  · unfold RandomData.generateData
    rw [if_neg (by omega), rangeLen_neg]
    rfl
  · rfl

/-- C102. A BigNumber refuses length zero but reads a negative length as the number zero; `toBytes` refuses a negative length. -/
theorem C102_bignumber (x : BigNumber) (arr : List Int) (o : Int) (k : Nat) (hk : 0 < k) (f : Int) (hf : f = 1 ∨ f = 2) :
    x.init (some arr) o (-(k : Int)) f = (.ok (), { x with value := some 0 }) ∧
    (∀ v, x.value = some v → x.add (some arr) o (-(k : Int)) f = (.ok (), x) ∧ x.subtract (some arr) o (-(k : Int)) f = (.ok (), x) ∧
      x.multiply (some arr) o (-(k : Int)) f = (.ok (), { x with value := some 0 }) ∧
      x.compareToArray (some arr) o (-(k : Int)) f = .ok (if v = 0 then 0 else if v > 0 then 1 else -1)) ∧
    (∀ v out oo, x.value = some v → x.toBytes out oo (-(k : Int)) f = (.error .arithmetic, out)) := by
  have hi : ∀ y : BigNumber, y.init (some arr) o (-(k : Int)) f = (.ok (), { y with value := some 0 }) := by
    intro y
    unfold BigNumber.init
    rw [if_neg (by omega)]
    simp only [rangeLen_neg, BigNumber.initLoop]
    rcases hf with rfl | rfl
    · rw [if_pos (show (1 : Int) = BigNumber.FORMAT_BCD from rfl)]
    · rw [if_neg (show ¬ (2 : Int) = BigNumber.FORMAT_BCD by decide), if_pos (show (2 : Int) = BigNumber.FORMAT_HEX from rfl)]
  have ho : BigNumber.operand (some arr) o (-(k : Int)) f = .ok 0 := by
    unfold BigNumber.operand
    rw [hi]
  refine ⟨hi x, ?_, ?_⟩
  · intro v hv
    refine ⟨?_, ?_, ?_, ?_⟩
    · unfold BigNumber.add BigNumber.combine; rw [ho]; simp only [hv, Int.add_zero]; cases x; simp_all
    · unfold BigNumber.subtract BigNumber.combine; rw [ho]; simp only [hv, Int.sub_zero]; cases x; simp_all
    · unfold BigNumber.multiply BigNumber.combine; rw [ho]; simp only [hv, Int.mul_zero]
    · unfold BigNumber.compareToArray BigNumber.compareTo
      rw [ho]
      simp only [hv]
      by_cases h : v = 0
      · subst h; rfl
      · rw [if_neg (by simpa using h), if_neg h]
        by_cases h2 : v > 0
        · rw [if_pos h2, if_pos h2]
        · rw [if_neg h2, if_neg h2]
  · intro v out oo hv
    unfold BigNumber.toBytes
    rw [if_pos (show f = BigNumber.FORMAT_BCD ∨ f = BigNumber.FORMAT_HEX from hf), hv]
    simp only
    rw [if_pos (by split <;> omega)]

theorem copy_neg (src : List Int) (so : Int) (k : Nat) : Util.arrayCopy src so (fresh (-(k : Int)) 0) 0 (-(k : Int)) = (.ok (), []) := by
  have := (copy_cells src so (-(k : Int))).1 (.inl (by omega))
  rw [this]
  simp [cellsFrom]

theorem copy_zero : Util.arrayCopy [] 0 (fresh 0 0) 0 0 = (.ok (), []) := by
  have := (copy_cells [] 0 0).1 (.inl (by omega))
  rw [this]
  rfl

/-- C102. A cipher takes a negative length as the empty message. -/
theorem C102_cipher (k : Nat) (inB : List Int) (io : Int) (outB : List Int) (oo : Int) :
    (∀ c : DESCipher, c.doFinal inB io (-(k : Int)) outB oo = c.doFinal [] 0 0 outB oo) ∧
    (∀ (heap : KeyHeap) (ops : RSAOps) (longSuffix : Bool) (rnd : List Nat) (c : RSACipher),
      c.doFinal heap ops longSuffix rnd inB io (-(k : Int)) outB oo = c.doFinal heap ops longSuffix rnd [] 0 0 outB oo) := by
  constructor
  · intro c
    unfold DESCipher.doFinal
    rw [copy_neg, copy_zero]
  · intro heap ops ls rnd c
    unfold RSACipher.doFinal
    rw [copy_neg, copy_zero]

/-! ### Keys, TLVs -/

/-- C102. `setExponent` takes a negative length like a slice; `setModulus` refuses it unless the key was built with a negative size. -/
theorem C102_keys (pycrypto : Bool) (key : RSAKey) (buf : List Int) (o k : Nat) (hk : 0 < k) :
    (key.setExponent pycrypto buf o (-(k : Int))).2.exponent = some (negRange buf o k) ∧
    (0 ≤ key.size → (key.setModulus pycrypto buf o (-(k : Int))) = (.error (if key.isPublic then .crypto 4 else .crypto 1), key)) := by
  constructor
  · unfold RSAKey.setExponent
    rw [slice_negRange buf o k hk]
    unfold RSAKey.afterSet
    cases key.modulus with
    | none => rfl
    | some m =>
      simp only
      split
      · split <;> rfl
      · rfl
  · intro h
    unfold RSAKey.setModulus
    rw [if_pos (by omega)]
    rfl

/-- C102. A TLV can be made with a negative length: `getLength` gives it back, `size` is the size of the tag, plus one, minus `k`; `getValue`
copies nothing and returns the negative number; `replaceValue` empties the value. -/
theorem C102_tlv (constructed : Bool) (tag : BERTag) (arr : List Int) (o k : Nat) (hk : 0 < k) :
    let t := (BERTLV.new constructed).initTag tag arr o (-(k : Int))
    t.length = -(k : Int) ∧ t.value = some (negRange arr o k) ∧ t.size = .ok (tag.size + 1 - k) ∧
    (constructed = false → ∀ dst doff, t.getValue dst doff = (.ok (-(k : Int)), dst)) ∧
    (constructed = false → ∀ (u : BERTLV) (src : List Int) (so : Int), u.constructed = false →
      u.replaceValue src so (-(k : Int)) = (.ok (), { u with value := some [], length := -(k : Int) })) := by
  intro t
  have hv : t.value = some (negRange arr o k) := by
    show some (slice arr (o : Int) ((o : Int) + -(k : Int))) = _
    rw [slice_negRange arr o k hk]
  refine ⟨rfl, hv, ?_, ?_, ?_⟩
  · show Except.ok (tag.size + getLengthLen (-(k : Int)) + -(k : Int)) = _
    unfold getLengthLen
    rw [if_neg (by omega)]
    congr 1
  · intro hc dst doff
    subst hc
    unfold BERTLV.getValue
    rw [if_neg (by exact Bool.false_ne_true)]
    have : Util.arrayCopy (t.value.getD []) 0 dst doff (-(k : Int)) = (.ok (), dst) := by
      unfold Util.arrayCopy
      rw [(C05_nonpositive (Util.twoLists (t.value.getD []) dst) 0 1 0 doff (-(k : Int)) (by omega)).1]
      rfl
    rw [show t.length = -(k : Int) from rfl, this]
  · intro _ u src so hu
    unfold BERTLV.replaceValue
    rw [hu, if_neg (by exact Bool.false_ne_true), copy_neg]

/-! ### APDUs -/

section
open APDU

theorem init_ne {bytes : List Int} (hb : AnyBytes bytes) {a : APDU} (h : APDU.init bytes = .ok a) (ne : Int) (hne : a.Ne = some ne) : 0 ≤ ne := by
  have h1 : ∀ b, 0 ≤ le1 b := by intro b; unfold le1; split; omega; rw [u1_eq]; omega
  have h2 : ∀ b c, 0 ≤ (le2 b c).1 := by
    intro b c; unfold le2
    split
    · split <;> simp
    · simp only [u1_eq]; omega
  by_cases h4 : bytes.length < 4
  · exfalso
    unfold APDU.init at h
    have h1 : (bytes.length : Int) < 4 := by omega
    simp only [h1, if_true, bind, Except.bind, throw, throwThe, MonadExceptOf.throw] at h
    cases h
  by_cases e4 : bytes.length = 4
  · rw [init_four bytes e4] at h; injection h with h; subst h; cases hne
  by_cases e5 : bytes.length = 5
  · rw [init_A bytes e5] at h; injection h with h; subst h; injection hne with hne; rw [← hne]; exact h1 _
  by_cases h0 : bytes[4] = 0
  · by_cases e6 : bytes.length = 6
    · rw [init_E bytes e6 h0] at h; cases h
    by_cases e7 : bytes.length = 7
    · rw [init_B bytes e7 h0] at h; injection h with h; subst h; injection hne with hne; rw [← hne]; exact h2 _ _
    by_cases hn : (bytes.length : Int) = u1 (bytes[5]'(by omega)) * (256 : Int) + u1 (bytes[6]'(by omega)) + 5
    · rw [init_F bytes (by omega) h0 hn] at h; injection h with h; subst h; cases hne
    · rw [init_G bytes (by omega) h0 hn] at h; injection h with h; subst h; injection hne with hne; rw [← hne]; exact h2 _ _
  · have hx := hb _ (List.getElem_mem (show 4 < bytes.length by omega))
    by_cases hn : (bytes.length : Int) = u1 (bytes[4]'(by omega)) + 5
    · rw [init_C bytes (by omega) h0 hn] at h; injection h with h; subst h; cases hne
    · rw [init_D bytes (by omega) h0 hx.2 hn] at h; injection h with h; subst h; injection hne with hne; rw [← hne]; exact h1 _

theorem step_ne (a : APDU) (op : Op) : (a.step op).2.Ne = a.Ne := by
  have hf : ∀ (d : List Int) o l, (a.sendFrom d o l).2.Ne = a.Ne := by
    intro d o l
    rcases sendFrom_cases a d o l with ⟨_, e⟩ | ⟨c, _, _, e⟩ | ⟨c, hc, _, e⟩ <;> rw [e]
    rfl
  cases hr : isReceive op with
  | true =>
    rcases step_receive a op hr with ⟨_, e⟩ | ⟨_, _, _, e⟩ | ⟨hc, ⟨b, e, hb⟩ | ⟨b, e, hb⟩⟩ <;> rw [e]
  | false =>
    cases op with
    | setIncomingAndReceive => cases hr
    | receiveBytes o => cases hr
    | setOutgoing => simp only [APDU.step]; rcases setOutgoing_cases a with ⟨_, e⟩ | ⟨_, e⟩ <;> rw [e]
    | setOutgoingLength l =>
      simp only [APDU.step]
      rcases setOutgoingLength_cases a l with ⟨_, e⟩ | ⟨_, _, e⟩ | ⟨_, _, e⟩ <;> rw [e]
    | poke i v => simp only [APDU.step]; rcases poke_cases a i v with ⟨_, e⟩ | ⟨_, _, e⟩ <;> rw [e]
    | sendBytes o l =>
      show (a.sendBytes o l).2.Ne = a.Ne
      unfold APDU.sendBytes
      split
      · rfl
      · exact hf _ _ _
    | sendBytesLong d o l =>
      show (a.sendBytesLong d o l).2.Ne = a.Ne
      unfold APDU.sendBytesLong
      split
      · rfl
      · exact hf _ _ _
    | setOutgoingAndSend o l =>
      show (a.setOutgoingAndSend o l).2.Ne = a.Ne
      rcases setOutgoingAndSend_cases a o l with ⟨_, e⟩ | ⟨_, ⟨_, e⟩ | ⟨_, ⟨_, e⟩ | ⟨_, e⟩⟩⟩ <;> rw [e] <;> rfl

theorem run_ne (a : APDU) (ops : List Op) : (a.run ops).Ne = a.Ne := by
  induction ops generalizing a with
  | nil => rfl
  | cons op ops ih => show ((a.step op).2.run ops).Ne = a.Ne; rw [ih, step_ne]

/-- C102. A negative response length is accepted at any point of the outgoing phase, without a look at the length the host expects; the
response then is everything in the APDU's own list but its last `k` bytes. -/
theorem C102_outgoing_length {bytes : List Int} (hb : AnyBytes bytes) {a : APDU} (ha : APDU.init bytes = .ok a) (x : List APDU.Op) (k : Nat) (hk : 0 < k)
    (hs : 3 ≤ (a.run x).getCurrentState) :
    ∃ b, (a.run x).setOutgoingLength (-(k : Int)) = (.ok (), b) ∧ b.response = inner (a.run x).raw 0 k := by
  rcases setOutgoingLength_cases (a.run x) (-(k : Int)) with ⟨h, _⟩ | ⟨_, ⟨ne, hne, hl⟩, _⟩ | ⟨_, _, e⟩
  · exact absurd hs (by show ¬ 3 ≤ (a.run x).state; omega)
  · rw [run_ne] at hne
    have := init_ne hb ha ne hne
    omega
  · refine ⟨_, e, ?_⟩
    show sliceTo (a.run x).raw (-(k : Int)) = _
    rw [PyDes.sliceTo_neg _ _ hk]
    simp [inner]

/-- C102. So an applet that announces a negative response length sends the command back to the host, without its last `k` bytes: no data has
to be sent for that. -/
theorem C102_command_sent_back {bytes : List Int} (hb : AnyBytes bytes) {a : APDU} (ha : APDU.init bytes = .ok a) (k : Nat) (hk : 0 < k) :
    ∃ b, a.run [.setOutgoing, .setOutgoingLength (-(k : Int))] = b ∧ b.getCurrentState = 4 ∧ b.response = inner bytes 0 k := by
  have hw := init_wf hb ha
  obtain ⟨k', ty, nc, ne, lel, cd, br, e, _⟩ := init_built hb ha
  have h0 : a.state = 0 := by rw [e]; rfl
  have hraw : a.raw = bytes := by rw [e]; rfl
  have hs : 3 ≤ (a.run [.setOutgoing]).getCurrentState := by
    rcases setOutgoing_cases a with ⟨h, _⟩ | ⟨_, e⟩
    · omega
    · show 3 ≤ (a.setOutgoing).2.state; rw [e]; exact Int.le_refl _
  obtain ⟨b, e1, e2⟩ := C102_outgoing_length hb ha [.setOutgoing] k hk hs
  refine ⟨b, ?_, ?_, ?_⟩
  · show ((a.run [.setOutgoing]).setOutgoingLength (-(k : Int))).2 = b
    rw [e1]
  · rcases setOutgoingLength_cases (a.run [.setOutgoing]) (-(k : Int)) with ⟨h, _⟩ | ⟨_, _, e⟩ | ⟨_, _, e⟩
    · exact absurd hs (by show ¬ 3 ≤ (a.run [.setOutgoing]).state; omega)
    · rw [e1] at e; cases e
    · rw [e1] at e; injection e with _ e; rw [e]; rfl
  · rw [e2, run_raw a [.setOutgoing] (by simp [isSend]), hraw]

/-- C102. Sending a negative number of bytes is accepted too. It takes back `k` of the `c` bytes sent so far, and *inserts* the bytes of the
buffer that the range stands for (none, if `k ≤ o`) at the old position, so that what is behind moves. -/
theorem C102_send (a : APDU) (o k c : Nat) (hk : 0 < k) (hs : 3 ≤ a.state) (hc : a.cur = some (c : Int)) (h1 : k ≤ c) (h2 : c ≤ a.raw.length)
    (h3 : c ≤ 256 + k) :
    ∃ b, a.sendBytes o (-(k : Int)) = (.ok (), b) ∧ b.cur = some ((c - k : Nat) : Int) ∧
      b.raw = a.raw.take c ++ negRange a.buffer o k ++ a.raw.drop c ∧
      b.getCurrentState = (if ((c - k : Nat) : Int) < a.outgoinglength then 5 else 6) := by
  unfold APDU.sendBytes
  rw [if_neg (by show ¬ a.state < 3; omega)]
  rcases sendFrom_cases a a.buffer o (-(k : Int)) with ⟨h, _⟩ | ⟨c', h, hl, _⟩ | ⟨c', h, hl, e⟩
  · rw [hc] at h; cases h
  · rw [hc] at h; injection h with h; omega
  · rw [hc] at h; injection h with h; subst h
    have hcc : (c : Int) + -(k : Int) = ((c - k : Nat) : Int) := by omega
    refine ⟨_, e, ?_, ?_, ?_⟩
    · show some ((c : Int) + -(k : Int)) = _; rw [hcc]
    · show setSlice a.raw c ((c : Int) + -(k : Int)) (slice a.buffer o ((o : Int) + -(k : Int))) = _
      rw [slice_negRange _ _ _ hk, hcc]
      unfold setSlice
      simp only [bound_natCast]
      rw [Nat.min_eq_left h2, Nat.min_eq_left (by omega : c - k ≤ a.raw.length), Nat.max_eq_left (by omega)]
    · show (if (c : Int) + -(k : Int) < a.outgoinglength then (5 : Int) else 6) = _
      rw [hcc]

example : (match APDU.init [0, 1, 2, 3, 2, 10, 11, 4] with
    | .ok a => (a.run [.setOutgoing, .setOutgoingLength (-2)]).response == [0, 1, 2, 3, 2, 10] &&
      (a.run [.setOutgoing, .setOutgoingLength 4, .sendBytes 0 3, .sendBytes 0 (-1)]).cur == some 2 &&
      ((a.run [.setOutgoing, .setOutgoingLength 4, .sendBytes 0 3, .sendBytes 0 (-1)]).raw).length == 8 + 256
    | .error _ => false) = true := by decide +kernel

end

end Verif.Props
